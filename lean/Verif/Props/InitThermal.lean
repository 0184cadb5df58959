import Verif.Spec.InitThermal
import Verif.Props.InitWheel
/-!
# C189: a thermal network made from files
-/
namespace S2E.InitThermal
open Log Ini InitOrbit Thermal Eps Settings Csv

variable {rd : Reader} {nm : Numbers} {file : File} {csv : Str → Str}

/-! ## Reading -/

theorem join_no {d : Char} {row : List Str} (h : ∀ c ∈ row, d ∉ c) (hd : d ≠ ',') : d ∉ join ',' row := by
  induction row with
  | nil => simp [join]
  | cons f fs ih =>
    cases fs with
    | nil => exact h f (by simp)
    | cons g gs =>
      show d ∉ f ++ ',' :: join ',' (g :: gs)
      have h1 := h f (by simp)
      have h2 := ih (fun x hx => h x (by simp [hx]))
      simp [h1, h2, hd]

theorem IsTable.read {text : Str} {rows : List (List Str)} (h : IsTable text rows) : readCsvString text = rows := by
  obtain ⟨h1, rfl⟩ := h
  unfold readCsvString linesOf
  rw [C53_split_terminated '\n' _ (by
    intro f hf
    obtain ⟨row, hrow, rfl⟩ := List.mem_map.1 hf
    exact join_no (fun c hc => ((h1 row hrow).1 c hc).2) (by decide)), List.map_map]
  conv_rhs => rw [← List.map_id rows]
  exact List.map_congr_left fun row hrow => C53_split_join ',' row (fun x hx => ((h1 row hrow).1 x hx).1) (h1 row hrow).2

/-- The number in a cell. -/
noncomputable def valueOf (nm : Numbers) (c : Str) : ℝ :=
  match nm.stod c with
  | .ok x => x
  | _ => 0

theorem values_map {cells : List Str} {xs : List ℝ} (h : List.Forall₂ (Numbers.Cell nm) cells xs) : cells.map (valueOf nm) = xs := by
  induction h with
  | nil => rfl
  | cons h1 _ ih => rw [List.map_cons, ih, show valueOf nm _ = _ by unfold valueOf; rw [show nm.stod _ = _ from h1]]

theorem IsTable.matrix {text : Str} {header : List Str} {rows : List (List Str)} {m : List (List ℝ)} (h : IsTable text (header :: rows))
    (hv : List.Forall₂ (fun row x => Values nm x row) rows m) : readCsvDoubleWithHeader nm.stod text 1 1 = .ok m := by
  obtain ⟨h1, rfl⟩ := h
  have key : ∀ row ∈ rows, ∀ c ∈ row.drop 1, nm.stod c = .ok (valueOf nm c) := by
    intro row hrow c hc
    obtain ⟨k, hk, rfl⟩ := List.getElem_of_mem hrow
    obtain ⟨first, cells, e, hf⟩ := hv.get hk (by rw [← hv.length_eq]; exact hk)
    rw [List.get_eq_getElem] at e
    rw [e] at hc
    have hc' : c ∈ cells := by simpa using hc
    obtain ⟨j, hj, rfl⟩ := List.getElem_of_mem hc'
    have := hf.get hj (by rw [← hf.length_eq]; exact hj)
    rw [List.get_eq_getElem] at this
    have e2 : nm.stod cells[j] = .ok _ := this
    rw [e2]; unfold valueOf; rw [e2]
  rw [C53_csv nm.stod (valueOf nm) 1 1 (header :: rows) (fun row hrow => (h1 row hrow).1) (fun row hrow => (h1 row hrow).2) ?_]
  · congr 1
    unfold tableValues
    rw [List.drop_one, List.tail_cons]
    clear h1 key
    induction hv with
    | nil => rfl
    | cons h2 _ ih =>
      obtain ⟨first, cells, rfl, hf⟩ := h2
      rw [List.map_cons, ih, List.drop_one, List.tail_cons, values_map hf]
  · intro k row hk hk1 j x hx hj
    obtain ⟨k, rfl⟩ : ∃ k', k = k' + 1 := ⟨k - 1, by omega⟩
    obtain ⟨j, rfl⟩ : ∃ j', j = j' + 1 := ⟨j - 1, by omega⟩
    rw [List.getElem?_cons_succ] at hk
    refine key row (List.mem_of_getElem? hk) x ?_
    refine List.mem_of_getElem? (i := j) ?_
    rw [List.getElem?_drop, show 1 + j = j + 1 by omega]; exact hx

theorem makeAll_ok {α β γ : Type} (f : α → Res γ) (g : β → γ) {as : List α} {bs : List β} (h : List.Forall₂ (fun a b => f a = .ok (g b)) as bs) :
    makeAll f as = .ok (bs.map g) := by
  induction h with
  | nil => rfl
  | cons h1 _ ih => rw [makeAll, h1, ih]; rfl

/-- An object that cannot be made stops the loop. -/
theorem makeAll_stop {α β : Type} {f : α → Res β} {good : List α} {a : α} {rest : List α} (hg : ∀ g ∈ good, ∃ b, f g = .ok b) :
    ∀ r : Res (List β), makeAll f (good ++ a :: rest) = r → (f a = .throws → r = .throws) ∧ (f a = .ub → r = .ub) := by
  induction good with
  | nil =>
    rintro r rfl
    simp only [List.nil_append, makeAll]
    constructor <;> intro h <;> rw [h] <;> rfl
  | cons g good ih =>
    rintro r rfl
    obtain ⟨b, hb⟩ := hg g (by simp)
    obtain ⟨i1, i2⟩ := ih (fun g h => hg g (by simp [h])) _ rfl
    simp only [List.cons_append, makeAll, hb]
    constructor <;> intro h
    · have := i1 h; show (makeAll f (good ++ a :: rest)).bind _ = _; rw [this]; rfl
    · have := i2 h; show (makeAll f (good ++ a :: rest)).bind _ = _; rw [this]; rfl

theorem makeAll_ok' {α γ : Type} (f : α → Res γ) {as : List α} {cs : List γ} (h : List.Forall₂ (fun a c => f a = .ok c) as cs) : makeAll f as = .ok cs := by
  have := makeAll_ok f id h
  rwa [List.map_id] at this

theorem readPairs_ok {cells cells' : List Str} {ts ws : List ℝ} (h : List.Forall₂ (Numbers.Cell nm) cells ts) (h' : List.Forall₂ (Numbers.Cell nm) cells' ws)
    (hl : ws.length = ts.length) : readPairs nm cells cells' = .ok (ts, ws) := by
  induction h generalizing cells' ws with
  | nil =>
    have : ws = [] := List.length_eq_zero_iff.1 hl
    subst this
    rw [List.forall₂_nil_right_iff] at h'
    subst h'; rfl
  | cons h1 _ ih =>
    cases h' with
    | nil => simp at hl
    | cons h2 h3 =>
      have e1 : nm.stod _ = .ok _ := h1
      have e2 : nm.stod _ = .ok _ := h2
      rw [readPairs, e1, e2, ih h3 (by simpa using hl)]; rfl

/-- The heat load of a table. -/
noncomputable def loadOf (ts ws : List ℝ) (p : ℝ) : Heatload ℝ :=
  { times := ts, table := ws, idx := 0, solar := 0, albedo := 0, infrared := 0, internal := 0, heater := 0, total := 0, period := p, residual := fmodK 0 p }

theorem initHeatload_ok {timeRow row : List Str} {ts ws : List ℝ} {p : ℝ} (h : Values nm ts timeRow) (h' : Values nm ws row) (hid : ∃ n, Numbers.Whole nm (row.getD 0 []) n)
    (hl : ws.length = ts.length) (hp : ts.getLast? = some p) : initHeatload nm timeRow row = .ok (loadOf ts ws p) := by
  obtain ⟨f, cells, rfl, hc⟩ := h
  obtain ⟨f', cells', rfl, hc'⟩ := h'
  obtain ⟨n, hn⟩ := hid
  have hn' : nm.stoi f' = .ok n := hn
  have hne : ts ≠ [] := by rintro rfl; simp at hp
  have l1 := hc.length_eq
  have l2 := hc'.length_eq
  have l3 : 0 < ts.length := List.length_pos_of_ne_nil hne
  unfold initHeatload
  rw [if_pos (by simp only [List.length_cons]; omega), List.getD_cons_zero, hn', List.tail_cons, List.tail_cons, readPairs_ok hc hc' hl]
  show Heatload.make ts ws = _
  unfold Heatload.make
  rw [hp]; rfl

/-- The node of a row. -/
noncomputable def nodeOf (d : NodeSheet) : Node :=
  Node.make (nodeType (toSize d.type)) (toSize d.heater) d.temperature d.capacity d.alpha d.epsilon d.area (nodeNormal (toSize d.type) d.normal)

theorem initNode_ok {row : List Str} {d : NodeSheet} (h : d.In nm row) : initNode nm row = .ok (nodeOf d) := by
  obtain ⟨id, label, ty, he, ca, al, ep, ar, nx, ny, nz, te, n, rfl, h1, h2, h3, h4, h5, h6, h7, h8, h9, h10, h11⟩ := h
  have e1 : nm.stoi id = .ok n := h1
  have e2 : nm.stoi ty = .ok _ := h2
  have e3 : nm.stoi he = .ok _ := h3
  have e4 : nm.stod ca = .ok _ := h4
  have e5 : nm.stod al = .ok _ := h5
  have e6 : nm.stod ep = .ok _ := h6
  have e7 : nm.stod ar = .ok _ := h7
  have e8 : nm.stod nx = .ok _ := h8
  have e9 : nm.stod ny = .ok _ := h9
  have e10 : nm.stod nz = .ok _ := h10
  have e11 : nm.stod te = .ok _ := h11
  have ev : ![d.normal 0, d.normal 1, d.normal 2] = d.normal := by funext i; fin_cases i <;> rfl
  show (if (12 : ℕ) = 12 then (nm.stoi id).bind fun _ => (nm.stoi ty).bind fun t => (nm.stoi he).bind fun heater => (nm.stod ca).bind fun capacity =>
      (nm.stod al).bind fun alpha => (nm.stod ep).bind fun epsilon => (nm.stod ar).bind fun area =>
        (nm.stod nx).bind fun x => (nm.stod ny).bind fun y => (nm.stod nz).bind fun z => (nm.stod te).bind fun temperature =>
          .ok (Node.make (nodeType (toSize t)) (toSize heater) temperature capacity alpha epsilon area (nodeNormal (toSize t) ![x, y, z])) else .throws) = _
  rw [if_pos rfl, e1, e2, e3, e4, e5, e6, e7, e8, e9, e10, e11]
  show Res.ok (Node.make _ _ _ _ _ _ _ (nodeNormal _ ![d.normal 0, d.normal 1, d.normal 2])) = _
  rw [ev]; rfl

theorem initHeater_ok {row : List Str} {d : HeaterSheet} (h : d.In nm row) :
    ∃ id, initHeater nm row = .ok (Heater.make id d.rating, Controller.make d.lower d.upper) := by
  obtain ⟨id, ra, lo, up, n, rfl, h1, h2, h3, h4⟩ := h
  have e1 : nm.stoi id = .ok n := h1
  have e2 : nm.stod ra = .ok _ := h2
  have e3 : nm.stod lo = .ok _ := h3
  have e4 : nm.stod up = .ok _ := h4
  refine ⟨toSize n, ?_⟩
  show (if (4 : ℕ) = 4 then (nm.stoi id).bind fun id => (nm.stod ra).bind fun rating => (nm.stod lo).bind fun lower => (nm.stod up).bind fun upper =>
      .ok (Heater.make (toSize id) rating, Controller.make lower upper) else .throws) = _
  rw [if_pos rfl, e1, e2, e3, e4]; rfl

theorem heaters_ok {rows : List (List Str)} {ds : List HeaterSheet} (h : List.Forall₂ (fun row d => HeaterSheet.In d nm row) rows ds) :
    ∃ hs, makeAll (initHeater nm) rows = .ok hs ∧
      (hs.map Prod.fst).map (fun x => (x.rating, x.on, x.output)) = ds.map (fun d => (max 0 d.rating, false, 0)) ∧
      (hs.map Prod.snd).map (fun c => (c.lower, c.upper)) = ds.map (fun d => (d.lower, if d.upper < d.lower then d.lower + 10 else d.upper)) := by
  induction h with
  | nil => exact ⟨[], rfl, rfl, rfl⟩
  | @cons row d rows ds h1 _ ih =>
    obtain ⟨id, e⟩ := initHeater_ok h1
    obtain ⟨hs, i1, i2, i3⟩ := ih
    refine ⟨(Heater.make id d.rating, Controller.make d.lower d.upper) :: hs, by rw [makeAll, e, i1]; rfl, ?_, ?_⟩
    · rw [List.map_cons, List.map_cons, List.map_cons, i2]
      congr 1
      show (_, _, _) = _
      rw [show (Heater.make id d.rating).rating = max 0 d.rating by
        show (if d.rating < 0 then 0 else d.rating) = _
        split
        · rw [max_eq_left (by linarith)]
        · rw [max_eq_right (by linarith)]]
      rfl
    · rw [List.map_cons, List.map_cons, List.map_cons, i3]; rfl

theorem squareMatrix_ok {m : List (List ℝ)} {n : ℕ} (h : m.length = n) (hn : n ≠ 0) (hr : ∀ r, m[0]? = some r → r.length = n) : squareMatrix m = .ok m := by
  cases m with
  | nil => exact absurd h.symm hn
  | cons r m =>
    unfold squareMatrix
    dsimp only
    rw [if_pos (by rw [h, hr r rfl])]

theorem loads_ok {timeRow : List Str} {ts : List ℝ} (a2 : Values nm ts timeRow) {rows : List (List Str)} {ws : List (List ℝ)}
    (a3 : List.Forall₂ (fun row w => Values nm w row ∧ ∃ n, Numbers.Whole nm (row.getD 0 []) n) rows ws) (ht : ts ≠ []) (hw : ∀ w ∈ ws, w.length = ts.length) :
    makeAll (initHeatload nm timeRow) rows = .ok (ws.map fun w => loadOf ts w (ts.getLast ht)) := by
  refine makeAll_ok _ (fun w => loadOf ts w (ts.getLast ht)) ?_
  induction a3 with
  | nil => exact .nil
  | cons q _ ih => exact .cons (initHeatload_ok a2 q.1 q.2 (hw _ (by simp)) (List.getLast?_eq_some_getLast ht)) (ih (fun w h => hw w (by simp [h])))

/-- What the files give, with the matrices only checked as the code checks them. -/
theorem load_ok {s : ThermalSheet} (hs : s.In rd nm file csv) (step : ℝ) (hn : s.nodes ≠ []) (hl : s.loads.length = s.nodes.length) (ht : s.times ≠ [])
    (hw : ∀ w ∈ s.loads, w.length = s.times.length) (hc : s.conductance.length = s.nodes.length) (hr : s.radiation.length = s.nodes.length)
    (hc0 : ∀ r, s.conductance[0]? = some r → r.length = s.nodes.length) (hr0 : ∀ r, s.radiation[0]? = some r → r.length = s.nodes.length) :
    ∃ hs : List (Heater ℝ × Controller ℝ), (hs.map Prod.fst).map (fun x : Heater ℝ => (x.rating, x.on, x.output)) = s.heaters.map (fun d => (max 0 d.rating, false, 0)) ∧
      (hs.map Prod.snd).map (fun c : Controller ℝ => (c.lower, c.upper)) = s.heaters.map (fun d => (d.lower, if d.upper < d.lower then d.lower + 10 else d.upper)) ∧
      initTemperature rd nm file csv step = printParams (readEnable rd.paths (file "THERMAL".toList) "debug".toList)
        ⟨s.conductance, s.radiation, s.nodes.map nodeOf, s.loads.map (fun w => loadOf s.times w (s.times.getLast ht)), hs.map Prod.fst, hs.map Prod.snd, step, true, s.solar⟩ := by
  obtain ⟨h1, h2, dir, h3, ⟨timeRow, loadRows, a1, a2, a3⟩, ⟨nh, nodeRows, b1, b2⟩, ⟨hh, heaterRows, c1, c2⟩, ⟨ch, cRows, d1, d2⟩, ⟨rh, rRows, e1, e2⟩⟩ := hs
  obtain ⟨hs, g1, g2, g3⟩ := heaters_ok c2
  refine ⟨hs, g2, g3, ?_⟩
  have hloads : makeAll (initHeatload nm timeRow) loadRows = .ok (s.loads.map fun w => loadOf s.times w (s.times.getLast ht)) := loads_ok a2 a3 ht hw
  have hnodes : makeAll (initNode nm) nodeRows = .ok (s.nodes.map nodeOf) := makeAll_ok _ nodeOf (b2.imp fun _ _ q => initNode_ok q)
  have hlen : s.nodes.length ≠ 0 := fun h => hn (List.length_eq_zero_iff.1 h)
  unfold initTemperature
  dsimp only
  rw [InitWheel.Switch.read h1, if_neg (by decide), InitWheel.Switch.read h2, h3.read]
  unfold loadNetwork readLoads
  rw [IsTable.read a1, IsTable.read b1, IsTable.read c1]
  simp only [body, Res.bind, List.getD_cons_zero]
  rw [hloads, hnodes, g1]
  simp only [List.length_map, hl, if_true]
  rw [IsTable.matrix d1 d2, IsTable.matrix e1 e2]
  simp only [hc, hr, and_self, if_true]
  rw [squareMatrix_ok hc hlen hc0, squareMatrix_ok hr hlen hr0]

theorem getD_eq {α : Type} (l : List α) (i : ℕ) (d : α) (h : i < l.length) : l.getD i d = l[i] := by
  rw [List.getD_eq_getElem?_getD, List.getElem?_eq_getElem h, Option.getD_some]

theorem toSize_of {z : ℤ} (h : -2 ^ 31 ≤ z ∧ z < 2 ^ 31) : (0 ≤ z → (toSize z : ℤ) = z) ∧ (z < 0 → 2 ^ 63 ≤ toSize z) := by
  unfold toSize
  constructor <;> intro h0
  · rw [Int.emod_eq_of_lt h0 (by omega)]; omega
  · rw [show z % 2 ^ 64 = z + 2 ^ 64 by omega]; omega

theorem toSize_eq {z : ℤ} (h : -2 ^ 31 ≤ z ∧ z < 2 ^ 31) (k : ℕ) (hk : k < 2 ^ 31) : toSize z = k ↔ z = k := by
  obtain ⟨h1, h2⟩ := toSize_of h
  rcases lt_or_ge z 0 with h0 | h0
  · have := h2 h0
    omega
  · have := h1 h0
    omega

theorem NodeSheet.range {row : List Str} {d : NodeSheet} (h : d.In nm row) : (-2 ^ 31 ≤ d.type ∧ d.type < 2 ^ 31) ∧ -2 ^ 31 ≤ d.heater ∧ d.heater < 2 ^ 31 := by
  obtain ⟨id, label, ty, he, ca, al, ep, ar, nx, ny, nz, te, n, rfl, h1, h2, h3, -⟩ := h
  exact ⟨nm.range _ _ h2, nm.range _ _ h3⟩

theorem ThermalSheet.range {s : ThermalSheet} (hs : s.In rd nm file csv) (d : NodeSheet) (hd : d ∈ s.nodes) :
    (-2 ^ 31 ≤ d.type ∧ d.type < 2 ^ 31) ∧ -2 ^ 31 ≤ d.heater ∧ d.heater < 2 ^ 31 := by
  obtain ⟨_, _, dir, _, _, ⟨nh, rows, _, b2⟩, _⟩ := hs
  obtain ⟨k, hk, rfl⟩ := List.getElem_of_mem hd
  have := b2.get (by rw [b2.length_eq]; exact hk) hk
  exact NodeSheet.range this

theorem nodeOf_kind {d : NodeSheet} (h : -2 ^ 31 ≤ d.type ∧ d.type < 2 ^ 31) :
    (nodeOf d).kind = if d.type = 1 then NodeType.boundary else if d.type = 2 then .arithmetic else .diffusive := by
  show nodeType (toSize d.type) = _
  unfold nodeType
  have e1 := toSize_eq h 1 (by norm_num)
  have e2 := toSize_eq h 2 (by norm_num)
  push_cast at e1 e2
  by_cases g1 : d.type = 1
  · rw [if_pos (e1.2 g1), if_pos g1]
  · rw [if_neg (fun q => g1 (e1.1 q)), if_neg g1]
    by_cases g2 : d.type = 2
    · rw [if_pos (e2.2 g2), if_pos g2]
    · rw [if_neg (fun q => g2 (e2.1 q)), if_neg g2]

theorem clip_max (x : ℝ) : (if x < 0 then 0 else x) = max 0 x := by
  split
  · rw [max_eq_left (by linarith)]
  · rw [max_eq_right (by linarith)]

theorem clip_fraction (x : ℝ) : (if x < 0 ∨ x > 1 then 0 else x) = fraction x := by
  unfold fraction
  by_cases h : x < 0 ∨ x > 1
  · rw [if_pos h, if_neg (by rintro ⟨h1, h2⟩; rcases h with h | h <;> linarith)]
  · push Not at h
    rw [if_neg (by push Not; exact h), if_pos h]

theorem nodeOf_normal {d : NodeSheet} (h : -2 ^ 31 ≤ d.type ∧ d.type < 2 ^ 31) : (nodeOf d).normal =
    if d.type = 0 then fun k => d.normal k / Real.sqrt (d.normal 0 ^ 2 + d.normal 1 ^ 2 + d.normal 2 ^ 2) else d.normal := by
  show nodeNormal (toSize d.type) d.normal = _
  unfold nodeNormal
  have e0 := toSize_eq h 0 (by norm_num)
  push_cast at e0
  by_cases g : d.type = 0
  · rw [if_pos (e0.2 g), if_pos g]
    funext k
    congr 1
    unfold calcNorm
    rw [Fin.sum_univ_three]
  · rw [if_neg (fun q => g (e0.1 q)), if_neg g]

/-- The made network in terms of the sheet. -/
theorem describes {s : ThermalSheet} (hs : s.In rd nm file csv) (hl : s.loads.length = s.nodes.length) (ht : s.times ≠ [])
    (hc : ∀ r ∈ s.conductance, s.nodes.length ≤ r.length) (hr : ∀ r ∈ s.radiation, s.nodes.length ≤ r.length) (heaters : List (Heater ℝ)) (controllers : List (Controller ℝ))
    (h1 : heaters.map (fun x : Heater ℝ => (x.rating, x.on, x.output)) = s.heaters.map (fun d => (max 0 d.rating, false, 0)))
    (h2 : controllers.map (fun c : Controller ℝ => (c.lower, c.upper)) = s.heaters.map (fun d => (d.lower, if d.upper < d.lower then d.lower + 10 else d.upper))) (step : ℝ) :
    s.Describes (Loaded.network ⟨s.conductance, s.radiation, s.nodes.map nodeOf, s.loads.map (fun w => loadOf s.times w (s.times.getLast ht)), heaters, controllers, step, true,
      s.solar⟩) := by
  have hnode : ∀ (i : Fin (s.nodes.map nodeOf).length) d, s.nodes[i]? = some d → d ∈ s.nodes ∧ (s.nodes.map nodeOf)[i] = nodeOf d := by
    intro i d hd
    refine ⟨List.mem_of_getElem? hd, ?_⟩
    obtain ⟨hb, e⟩ := List.getElem?_eq_some_iff.1 hd
    rw [← e]
    exact List.getElem_map nodeOf
  constructor
  · exact List.length_map _
  · intro i d hd
    obtain ⟨hm, e⟩ := hnode i d hd
    show ((s.nodes.map nodeOf)[i]).kind = _
    rw [e, nodeOf_kind (ThermalSheet.range hs d hm).1]
  · intro i d hd h0
    obtain ⟨hm, e⟩ := hnode i d hd
    show (((s.nodes.map nodeOf)[i]).heaterId : ℤ) = _
    rw [e]
    exact (toSize_of (ThermalSheet.range hs d hm).2).1 h0
  · intro i d hd
    obtain ⟨hm, e⟩ := hnode i d hd
    show ((s.nodes.map nodeOf)[i]).temperature = _ ∧ ((s.nodes.map nodeOf)[i]).capacity = _ ∧ ((s.nodes.map nodeOf)[i]).alpha = _ ∧
      ((s.nodes.map nodeOf)[i]).epsilon = _ ∧ ((s.nodes.map nodeOf)[i]).area = _
    rw [e]
    exact ⟨clip_max _, clip_max _, clip_fraction _, clip_fraction _, clip_max _⟩
  · intro i d hd
    obtain ⟨hm, e⟩ := hnode i d hd
    show ((s.nodes.map nodeOf)[i]).normal = _
    rw [e, nodeOf_normal (ThermalSheet.range hs d hm).1]
  · intro i
    have hi : i.val < s.loads.length := by have := i.isLt; simp only [List.length_map] at this; omega
    have e : (s.loads.map (fun w => loadOf s.times w (s.times.getLast ht))).getD i ⟨[], [], 0, 0, 0, 0, 0, 0, 0, 0, 0⟩ = loadOf s.times s.loads[i] (s.times.getLast ht) := by
      have hi' : i.val < (s.loads.map (fun w => loadOf s.times w (s.times.getLast ht))).length := lt_of_lt_of_eq hi (List.length_map _).symm
      rw [getD_eq _ _ _ hi', List.getElem_map]; rfl
    unfold Loaded.network
    dsimp only
    rw [e]
    exact ⟨rfl, (List.getElem?_eq_getElem hi).symm, rfl, (List.getLast?_eq_some_getLast ht).symm, rfl, rfl⟩
  · exact h1
  · exact h2
  · intro i j r hr'
    have hj : j.val < r.length := lt_of_lt_of_le (by have := j.isLt; simpa using this) (hc r (List.mem_of_getElem? hr'))
    show some ((s.conductance.getD i []).getD j 0) = _
    have e : s.conductance.getD i [] = r := by rw [List.getD_eq_getElem?_getD, show s.conductance[i.val]? = some r from hr', Option.getD_some]
    rw [e, getD_eq _ _ _ hj]
    exact (List.getElem?_eq_getElem hj).symm
  · intro i j r hr'
    have hj : j.val < r.length := lt_of_lt_of_le (by have := j.isLt; simpa using this) (hr r (List.mem_of_getElem? hr'))
    show some ((s.radiation.getD i []).getD j 0) = _
    have e : s.radiation.getD i [] = r := by rw [List.getD_eq_getElem?_getD, show s.radiation[i.val]? = some r from hr', Option.getD_some]
    rw [e, getD_eq _ _ _ hj]
    exact (List.getElem?_eq_getElem hj).symm
  · rfl
  · rfl
  · rfl

theorem rowFull_of {m : List (List ℝ)} {n i : ℕ} (h : m.length = n) (hi : i < n) (hr : ∀ r ∈ m, r.length = n) : rowFull m n i = true := by
  unfold rowFull
  rw [getD_eq _ _ _ (by omega), hr _ (List.getElem_mem _)]
  simp

/-! ## Theorems -/

/-- **C189 (settings).** Files in which a thermal sheet that fits together is written make a network with exactly the data of the sheet, by the place of a row in its file: the
numbers in the first column of nodes, loads and heaters have no influence. -/
theorem C189_settings (s : ThermalSheet) (hs : s.In rd nm file csv) (hf : s.Fits) (step : ℝ) :
    ∃ l, initTemperature rd nm file csv step = .ok l ∧ s.Describes l.network ∧ l.network.step = step ∧
      ∀ fuel lfuel e timeEnd, l.propagate fuel lfuel e timeEnd = l.network.propagate fuel lfuel e timeEnd := by
  obtain ⟨hs', g1, g2, g3⟩ := load_ok hs step hf.nodes hf.loads hf.times hf.load hf.conductance hf.radiation
    (fun r h => hf.conductanceRow r (List.mem_of_getElem? h)) (fun r h => hf.radiationRow r (List.mem_of_getElem? h))
  refine ⟨_, ?_, describes hs hf.loads hf.times (fun r h => (hf.conductanceRow r h).ge) (fun r h => (hf.radiationRow r h).ge) _ _ g1 g2 step, rfl, ?_⟩
  · rw [g3]
    unfold printParams
    rw [if_neg]
    rintro ⟨-, i, hi, h⟩
    simp only [List.length_map] at hi h
    rw [rowFull_of hf.conductance hi hf.conductanceRow, rowFull_of hf.radiation hi hf.radiationRow] at h
    simp at h
  · intro fuel lfuel e timeEnd
    unfold Loaded.propagate
    rw [if_neg]
    rintro ⟨-, i, -, h⟩
    have hi := i.isLt
    simp only [List.length_map] at hi h
    rw [rowFull_of hf.conductance hi hf.conductanceRow, rowFull_of hf.radiation hi hf.radiationRow] at h
    simp at h

theorem Describes.node {n : ℕ} {s : ThermalSheet} {net : Network n} (h : s.Describes net) (i : Fin n) : ∃ d, s.nodes[i]? = some d ∧ d ∈ s.nodes := by
  have hi : i.val < s.nodes.length := by rw [← h.count]; exact i.isLt
  exact ⟨s.nodes[i.val], List.getElem?_eq_getElem hi, List.getElem_mem _⟩

theorem Describes.wf {n : ℕ} {s : ThermalSheet} {net : Network n} (h : s.Describes net) (hf : s.Fits) (hu : s.Usable) : WF net := by
  have hlen : net.heaters.length = s.heaters.length := by have := congrArg List.length h.heaters; simpa using this
  have hlen' : net.controllers.length = s.heaters.length := by have := congrArg List.length h.controllers; simpa using this
  constructor
  · intro i hk
    obtain ⟨d, hd, hm⟩ := Describes.node h i
    have hk' := (h.kind i d hd).symm.trans hk
    have g1 : d.type ≠ 1 := fun g => by rw [if_pos g] at hk'; cases hk'
    have g2 : d.type ≠ 2 := fun g => by rw [if_neg g1, if_pos g] at hk'; cases hk'
    have := hu.capacity d hm g1 g2
    rw [(h.surface i d hd).2.1, max_eq_right this.le]
    exact this.ne'
  · intro i
    obtain ⟨e1, e2, e3, e4, -⟩ := h.load i
    have hmem : (net.loads i).table ∈ s.loads := List.mem_of_getElem? e2.symm
    refine ⟨⟨?_, ?_, ?_, ?_, ?_⟩, ?_⟩
    · rw [e1]; exact hu.two
    · rw [e1]; exact hf.load _ hmem
    · rw [e1]; exact hu.increasing
    · rw [e1, ← e4]
    · exact hu.last _ e4.symm
    · rw [e1, e3]; have := hu.two; omega
  · intro i
    obtain ⟨d, hd, hm⟩ := Describes.node h i
    have := h.heater i d hd (hu.heater d hm).1
    have h2 := (hu.heater d hm).2
    omega
  · rw [hlen, hlen']

theorem filter_single {n : ℕ} (i : Fin n) (p : Fin n → Bool) (h : ∀ j, p j = true ↔ j = i) : (List.finRange n).filter p = [i] := by
  have e : p = fun j => j == i := by funext j; rw [Bool.eq_iff_iff, h j]; simp
  rw [e, List.filter_beq, List.count_eq_one_of_mem (List.nodup_finRange n) (List.mem_finRange i)]; rfl

/-- **C189 (propagation).** If the network can be propagated, the first call of `Propagate` reaches any time from 0 on, boundary and arithmetic nodes have their written temperature,
and a heater that is named by one node is then on exactly if this node is colder than the written lower threshold, with the written power. -/
theorem C189_propagate (s : ThermalSheet) (hs : s.In rd nm file csv) (hf : s.Fits) (hu : s.Usable) (step : ℝ) (hstep : 0 < step) (e : Env) (timeEnd : ℝ) (h0 : 0 ≤ timeEnd)
    (lfuel : ℕ) (hlf : s.times.length ≤ lfuel) :
    ∃ l, initTemperature rd nm file csv step = .ok l ∧ ∃ N, ∀ fuel ≥ N, ∃ net, l.propagate fuel lfuel e timeEnd = .ok net ∧ net.time = timeEnd ∧
      (∀ (i : Fin l.nodes.length) (d : NodeSheet), s.nodes[i]? = some d → d.type = 1 ∨ d.type = 2 → (net.nodes i).temperature = max 0 d.temperature) ∧
      ∀ (i : Fin l.nodes.length) (d : NodeSheet) (k : ℕ) (w : HeaterSheet), s.nodes[i]? = some d → s.heaters[k]? = some w → d.heater = ((k : ℤ) + 1) →
        (∀ (j : Fin l.nodes.length) (d' : NodeSheet), s.nodes[j]? = some d' → d'.heater = ((k : ℤ) + 1) → j = i) →
        ∃ h : Heater ℝ, net.heaters[k]? = some h ∧ (h.on = true ↔ (net.nodes i).temperature - 273.15 < w.lower) ∧ h.output = if h.on then max 0 w.rating else 0 := by
  obtain ⟨l, h1, h2, h3, h4⟩ := C189_settings s hs hf step
  refine ⟨l, h1, ?_⟩
  have hw := Describes.wf h2 hf hu
  obtain ⟨N, hN⟩ := C78_propagate l.network lfuel e timeEnd hw (fun i => by rw [(h2.load i).1]; exact hlf) (by rw [h2.time]) (by rw [h2.time]; exact h0)
    (by rw [h3]; exact hstep) h2.enabled
  refine ⟨N, fun fuel hfuel => ?_⟩
  obtain ⟨net, g1, g2, -, g4, g5, g6⟩ := hN fuel hfuel
  refine ⟨net, by rw [h4]; exact g1, g2, ?_, ?_⟩
  · intro i d hd ht
    rw [g6 i, (h2.surface i d hd).1]
    rw [h2.kind i d hd]
    rcases ht with ht | ht
    · rw [if_pos ht]; simp
    · rw [if_neg (by omega), if_pos ht]; simp
  · intro i d k w hd hk hh honly
    obtain ⟨-, c2⟩ := C79_heaters _ _ _ _ g4
    have e1 := congrArg (fun x => x[k]?) h2.heaters
    have e2 := congrArg (fun x => x[k]?) h2.controllers
    simp only [List.getElem?_map, hk, Option.map_some, Option.map_eq_some_iff, Prod.mk.injEq] at e1 e2
    obtain ⟨ht, a1, a2, a3, a4⟩ := e1
    obtain ⟨c, b1, b2, b3⟩ := e2
    refine ⟨_, c2 k ht c a1 b1, ?_⟩
    have hid : ∀ j, (net.nodes j).heaterId = (l.network.nodes j).heaterId := by
      intro j
      obtain ⟨T, a, b, c, q⟩ := g5.node j
      have := congrArg Node.heaterId q
      exact this
    have hfil : ((List.finRange _).map net.nodes).filter (fun nd => decide (nd.heaterId = k + 1)) = [net.nodes i] := by
      rw [List.filter_map, filter_single i]
      · rfl
      · intro j
        obtain ⟨d', hd', hm'⟩ := Describes.node h2 j
        have q := h2.heater j d' hd' (hu.heater d' hm').1
        show decide ((net.nodes j).heaterId = k + 1) = true ↔ _
        rw [decide_eq_true_iff, hid]
        constructor
        · intro hq
          exact honly j d' hd' (by omega)
        · rintro rfl
          have : d' = d := Option.some.inj (hd'.symm.trans hd)
          subst this
          omega
    rw [hfil]
    simp only [List.map_cons, List.map_nil, Controller.run, List.foldl_cons, List.foldl_nil, Controller.control, a3, b2]
    simp only [Bool.false_eq_true, if_false]
    by_cases hlt : (net.nodes i).temperature - 273.15 < w.lower
    · rw [if_pos hlt]
      exact ⟨⟨fun _ => hlt, fun _ => rfl⟩, by simp only [Heater.setStatus, if_true, a2]⟩
    · rw [if_neg hlt]
      exact ⟨⟨fun h => (by rw [a3] at h; cases h), fun h => absurd h hlt⟩, by rw [a3, a4]; rfl⟩

/-- **C189 (energy).** Without light from the Sun and the Earth, between nodes that are all diffusive and symmetrically coupled, the heat content after the first `Propagate` is that of
the written temperatures plus the written constant powers times the time, whatever the step. -/
theorem C189_energy (s : ThermalSheet) (hs : s.In rd nm file csv) (hf : s.Fits) (hu : s.Usable) (step : ℝ) (hstep : 0 < step) (e : Env) (he : e.infrared = 0)
    (hsolar : s.solar = false) (timeEnd : ℝ) (h0 : 0 ≤ timeEnd) (lfuel : ℕ) (hlf : s.times.length ≤ lfuel) (hd : ∀ d ∈ s.nodes, d.type ≠ 1 ∧ d.type ≠ 2)
    (hc : ∀ (i j : ℕ) (a b : List ℝ), s.conductance[i]? = some a → s.conductance[j]? = some b → a[j]? = b[i]?)
    (hr : ∀ (i j : ℕ) (a b : List ℝ), s.radiation[i]? = some a → s.radiation[j]? = some b → a[j]? = b[i]?) (w : ℕ → ℝ) (hw : ∀ (i : ℕ) (t : List ℝ), s.loads[i]? = some t → ∀ x ∈ t, x = w i) :
    ∃ l, initTemperature rd nm file csv step = .ok l ∧ ∃ N, ∀ fuel ≥ N, ∃ net, l.propagate fuel lfuel e timeEnd = .ok net ∧
      (∑ i, (net.nodes i).capacity * (net.nodes i).temperature) =
        (s.nodes.map fun d => d.capacity * max 0 d.temperature).sum + timeEnd * ((List.range s.nodes.length).map w).sum := by
  obtain ⟨l, h1, h2, h3, h4⟩ := C189_settings s hs hf step
  refine ⟨l, h1, ?_⟩
  have hwf := Describes.wf h2 hf hu
  have hcount : l.nodes.length = s.nodes.length := h2.count
  have hkind : ∀ i, (l.network.nodes i).kind = .diffusive := by
    intro i
    obtain ⟨d, q, hm⟩ := Describes.node h2 i
    rw [h2.kind i d q, if_neg (hd d hm).1, if_neg (hd d hm).2]
  have hrowC : ∀ i : Fin l.nodes.length, ∃ r, s.conductance[i]? = some r := fun i =>
    ⟨_, List.getElem?_eq_getElem (by rw [hf.conductance, ← hcount]; exact i.isLt)⟩
  have hrowR : ∀ i : Fin l.nodes.length, ∃ r, s.radiation[i]? = some r := fun i =>
    ⟨_, List.getElem?_eq_getElem (by rw [hf.radiation, ← hcount]; exact i.isLt)⟩
  obtain ⟨N, hN⟩ := C78_energy l.network lfuel e timeEnd hwf (fun i => by rw [(h2.load i).1]; exact hlf) (by rw [h2.time]) (by rw [h2.time]; exact h0)
    (by rw [h3]; exact hstep) h2.enabled (fun i => w i) (fun i x hx => hw i _ (h2.load i).2.1.symm x hx) hkind
    (fun i j => by
      obtain ⟨a, ha⟩ := hrowC i
      obtain ⟨b, hb⟩ := hrowC j
      have := hc i j a b ha hb
      exact Option.some.inj (((h2.conductance i j a ha).trans this).trans (h2.conductance j i b hb).symm))
    (fun i j => by
      obtain ⟨a, ha⟩ := hrowR i
      obtain ⟨b, hb⟩ := hrowR j
      have := hr i j a b ha hb
      exact Option.some.inj (((h2.radiation i j a ha).trans this).trans (h2.radiation j i b hb).symm))
  refine ⟨N, fun fuel hfuel => ?_⟩
  obtain ⟨net, g1, g2⟩ := hN fuel hfuel
  refine ⟨net, by rw [h4]; exact g1, ?_⟩
  have hext : ∀ i, external l.network e i = 0 := by
    intro i
    unfold external
    rw [h2.solar, hsolar, (h2.load i).2.2.2.2.1, (h2.load i).2.2.2.2.2]
    have hi : (l.network.nodes i).calcInfrared e.earthPosition e.infrared = 0 := by unfold Node.calcInfrared; rw [he]; ring
    have hh : heaterOf l.network i = 0 := by
      unfold heaterOf
      split
      · rcases hq : l.network.heaters[(l.network.nodes i).heaterId - 1]? with _ | ht
        · rfl
        · have e1 := congrArg (fun x => x[(l.network.nodes i).heaterId - 1]?) h2.heaters
          simp only [List.getElem?_map, hq, Option.map_some] at e1
          obtain ⟨w', -, e2⟩ := Option.map_eq_some_iff.1 e1.symm
          have := congrArg (fun x => x.2.2) e2
          exact this.symm
      · rfl
    rw [hi, hh]; simp
  rw [show (∑ i, (net.nodes i).capacity * (net.nodes i).temperature) = energy net from rfl, g2, h2.time]
  simp only [hext, zero_add, sub_zero]
  have hE : energy l.network = (s.nodes.map fun d => d.capacity * max 0 d.temperature).sum := by
    unfold energy
    rw [← List.sum_ofFn]
    congr 1
    refine List.ext_getElem (by simp [hcount]) fun k hk1 hk2 => ?_
    rw [List.getElem_ofFn, List.getElem_map]
    have hk : k < s.nodes.length := by simpa using hk2
    have q : s.nodes[(⟨k, by omega⟩ : Fin l.nodes.length)]? = some s.nodes[k] := List.getElem?_eq_getElem hk
    obtain ⟨q1, q2, -⟩ := h2.surface _ _ q
    have hm := List.getElem_mem hk
    have hcap := hu.capacity _ hm (hd _ hm).1 (hd _ hm).2
    rw [q1, q2, max_eq_right hcap.le]
  have hW : (∑ i : Fin l.nodes.length, w i) = ((List.range s.nodes.length).map w).sum := by
    rw [← List.sum_ofFn]
    congr 1
    refine List.ext_getElem (by simp [hcount]) fun k hk1 hk2 => ?_
    simp
  rw [hE, hW]

/-! ## Files that do not fit -/

theorem read_empty : readCsvString [] = [] := IsTable.read ⟨by simp, rfl⟩

theorem makeAll_throws {α γ : Type} (f : α → Res γ) {as : List α} (h : ∀ a ∈ as, (∃ c, f a = .ok c) ∨ f a = .throws) (h' : ∃ a ∈ as, f a = .throws) :
    makeAll f as = .throws := by
  induction as with
  | nil => obtain ⟨a, ha, -⟩ := h'; cases ha
  | cons a as ih =>
    rcases h a (by simp) with ⟨c, hc⟩ | hc
    · have : ∃ a ∈ as, f a = .throws := by
        obtain ⟨b, hb, e⟩ := h'
        rcases List.mem_cons.1 hb with rfl | hb
        · rw [hc] at e; cases e
        · exact ⟨b, hb, e⟩
      rw [makeAll, hc, ih (fun b hb => h b (by simp [hb])) this]; rfl
    · rw [makeAll, hc]; rfl

/-- `InitTemperature` on the files of a sheet, as far as the matrices. -/
theorem load_prefix {s : ThermalSheet} (hs : s.In rd nm file csv) (step : ℝ) (ht : s.times ≠ []) (hw : ∀ w ∈ s.loads, w.length = s.times.length) :
    ∃ hs : List (Heater ℝ × Controller ℝ), initTemperature rd nm file csv step =
      if s.nodes.length = s.loads.length then
        if s.conductance.length = s.nodes.length ∧ s.radiation.length = s.nodes.length then
          (squareMatrix s.conductance).bind fun c => (squareMatrix s.radiation).bind fun r => printParams (readEnable rd.paths (file "THERMAL".toList) "debug".toList)
            ⟨c, r, s.nodes.map nodeOf, s.loads.map (fun w => loadOf s.times w (s.times.getLast ht)), hs.map Prod.fst, hs.map Prod.snd, step, true, s.solar⟩
        else .throws
      else .throws := by
  obtain ⟨h1, h2, dir, h3, ⟨timeRow, loadRows, a1, a2, a3⟩, ⟨nh, nodeRows, b1, b2⟩, ⟨hh, heaterRows, c1, c2⟩, ⟨ch, cRows, d1, d2⟩, ⟨rh, rRows, e1, e2⟩⟩ := hs
  obtain ⟨hs, g1, g2, g3⟩ := heaters_ok c2
  refine ⟨hs, ?_⟩
  have hloads : makeAll (initHeatload nm timeRow) loadRows = .ok (s.loads.map fun w => loadOf s.times w (s.times.getLast ht)) := loads_ok a2 a3 ht hw
  have hnodes : makeAll (initNode nm) nodeRows = .ok (s.nodes.map nodeOf) := makeAll_ok _ nodeOf (b2.imp fun _ _ q => initNode_ok q)
  unfold initTemperature
  dsimp only
  rw [InitWheel.Switch.read h1, if_neg (by decide), InitWheel.Switch.read h2, h3.read]
  unfold loadNetwork readLoads
  rw [IsTable.read a1, IsTable.read b1, IsTable.read c1]
  simp only [body, Res.bind, List.getD_cons_zero]
  rw [hloads, hnodes, g1]
  simp only [List.length_map]
  rw [IsTable.matrix d1 d2, IsTable.matrix e1 e2]

/-- **C189 (refusal: numbers of rows).** Files with another number of load rows than of nodes, or with a row of loads for another number of times than the row of times, or with
loads but no times, are refused by an assertion. -/
theorem C189_count (s : ThermalSheet) (hs : s.In rd nm file csv) (step : ℝ)
    (h : (∃ w ∈ s.loads, w.length ≠ s.times.length) ∨ (s.times = [] ∧ s.loads ≠ []) ∨ (s.times ≠ [] ∧ s.loads.length ≠ s.nodes.length)) :
    initTemperature rd nm file csv step = .throws := by
  by_cases hr : (∃ w ∈ s.loads, w.length ≠ s.times.length) ∨ (s.times = [] ∧ s.loads ≠ [])
  · obtain ⟨h1, h2, dir, h3, ⟨timeRow, loadRows, a1, a2, a3⟩, -⟩ := hs
    have a2' := a2
    obtain ⟨f, cells, e, hc⟩ := a2'
    have hl1 : timeRow.length = s.times.length + 1 := by rw [e, List.length_cons, hc.length_eq]
    have hrow : ∀ k (hk : k < loadRows.length), ∃ w, s.loads[k]? = some w ∧ loadRows[k].length = w.length + 1 ∧ Values nm w loadRows[k] ∧
        ∃ n, Numbers.Whole nm (loadRows[k].getD 0 []) n := by
      intro k hk
      have hk' : k < s.loads.length := by rw [← a3.length_eq]; exact hk
      have q := a3.get hk hk'
      rw [List.get_eq_getElem, List.get_eq_getElem] at q
      obtain ⟨f', cells', e', hc'⟩ := q.1
      exact ⟨_, List.getElem?_eq_getElem hk', by rw [e', List.length_cons, hc'.length_eq], q.1, q.2⟩
    have hbad : ∀ row : List Str, row.length ≠ timeRow.length ∨ s.times = [] → initHeatload nm timeRow row = .throws := by
      intro row hq
      unfold initHeatload
      rw [if_neg]
      rintro ⟨q1, q2, q3⟩
      rcases hq with hq | hq
      · exact hq q3.symm
      · rw [hq] at hl1; simp only [List.length_nil] at hl1; omega
    have key : makeAll (initHeatload nm timeRow) loadRows = .throws := by
      apply makeAll_throws
      · intro row hm
        obtain ⟨k, hk, rfl⟩ := List.getElem_of_mem hm
        obtain ⟨w, w1, w2, w3, w4⟩ := hrow k hk
        by_cases hq : w.length = s.times.length ∧ s.times ≠ []
        · exact .inl ⟨_, initHeatload_ok a2 w3 w4 hq.1 (List.getLast?_eq_some_getLast hq.2)⟩
        · refine .inr (hbad _ ?_)
          by_cases ht : s.times = []
          · exact .inr ht
          · exact .inl (fun q => hq ⟨by omega, ht⟩)
      · rcases hr with ⟨w, hw, hne⟩ | ⟨ht, hne⟩
        · obtain ⟨k, hk, rfl⟩ := List.getElem_of_mem hw
          have hk' : k < loadRows.length := by rw [a3.length_eq]; exact hk
          obtain ⟨w, w1, w2, -⟩ := hrow k hk'
          have : w = s.loads[k] := Option.some.inj (w1.symm.trans (List.getElem?_eq_getElem hk))
          subst this
          exact ⟨_, List.getElem_mem hk', hbad _ (.inl (by omega))⟩
        · have : 0 < loadRows.length := by rw [a3.length_eq]; exact List.length_pos_of_ne_nil hne
          exact ⟨_, List.getElem_mem this, hbad _ (.inr ht)⟩
    unfold initTemperature
    dsimp only
    rw [InitWheel.Switch.read h1, if_neg (by decide), h3.read]
    unfold loadNetwork readLoads
    rw [IsTable.read a1]
    simp only [body, Res.bind, List.getD_cons_zero]
    rw [key]
  · obtain ⟨hr1, hr2⟩ := not_or.1 hr
    rcases h with h | h | ⟨ht, hl⟩
    · exact absurd h hr1
    · exact absurd h hr2
    · push Not at hr1
      obtain ⟨x, e⟩ := load_prefix hs step ht hr1
      rw [e, if_neg (fun q => hl q.symm)]

/-- **C189 (refusal: matrices).** A matrix with another number of rows than there are nodes, or whose first row has another number of elements, is refused by an assertion. -/
theorem C189_matrix (s : ThermalSheet) (hs : s.In rd nm file csv) (step : ℝ) (hn : s.nodes ≠ []) (hl : s.loads.length = s.nodes.length) (ht : s.times ≠ [])
    (hw : ∀ w ∈ s.loads, w.length = s.times.length)
    (h : s.conductance.length ≠ s.nodes.length ∨ s.radiation.length ≠ s.nodes.length ∨ (∃ r, s.conductance[0]? = some r ∧ r.length ≠ s.nodes.length) ∨
      ∃ r, s.radiation[0]? = some r ∧ r.length ≠ s.nodes.length) : initTemperature rd nm file csv step = .throws := by
  obtain ⟨x, e⟩ := load_prefix hs step ht hw
  rw [e, if_pos hl.symm]
  by_cases hq : s.conductance.length = s.nodes.length ∧ s.radiation.length = s.nodes.length
  · rw [if_pos hq]
    have hlen : s.nodes.length ≠ 0 := fun h => hn (List.length_eq_zero_iff.1 h)
    have sq : ∀ m : List (List ℝ), m.length = s.nodes.length → squareMatrix m = .ok m ∨ squareMatrix m = .throws := by
      intro m hm
      cases m with
      | nil => exact absurd hm.symm hlen
      | cons r m => unfold squareMatrix; dsimp only; split <;> simp
    have sq' : ∀ (m : List (List ℝ)) r, m[0]? = some r → m.length = s.nodes.length → r.length ≠ s.nodes.length → squareMatrix m = .throws := by
      intro m r hr hm hne
      cases m with
      | nil => cases hr
      | cons r' m =>
        have : r' = r := Option.some.inj hr
        subst this
        unfold squareMatrix; dsimp only
        rw [if_neg (by rw [hm]; exact fun q => hne q.symm)]
    rcases h with h | h | ⟨r, h1, h2⟩ | ⟨r, h1, h2⟩
    · exact absurd hq.1 h
    · exact absurd hq.2 h
    · rw [sq' _ r h1 hq.1 h2]; rfl
    · rcases sq _ hq.1 with e1 | e1
      · rw [e1]
        show (squareMatrix s.radiation).bind _ = _
        rw [sq' _ r h1 hq.2 h2]; rfl
      · rw [e1]; rfl
  · rw [if_neg hq]

/-- **C189 (short rows).** Only the first row of each matrix is checked: if a later row, in the place of a diffusive node, has too few elements, the network is made (undefined
already then in debug mode) and every first `Propagate` is undefined behaviour. -/
theorem C189_short_row (s : ThermalSheet) (hs : s.In rd nm file csv) (step : ℝ) (hn : s.nodes ≠ []) (hl : s.loads.length = s.nodes.length) (ht : s.times ≠ [])
    (hw : ∀ w ∈ s.loads, w.length = s.times.length) (hc : s.conductance.length = s.nodes.length) (hr : s.radiation.length = s.nodes.length)
    (hc0 : ∀ r, s.conductance[0]? = some r → r.length = s.nodes.length) (hr0 : ∀ r, s.radiation[0]? = some r → r.length = s.nodes.length)
    (k : ℕ) (d : NodeSheet) (hd : s.nodes[k]? = some d) (r : List ℝ) (hk : s.conductance[k]? = some r ∨ s.radiation[k]? = some r) (hshort : r.length < s.nodes.length) :
    (Switch rd file "THERMAL".toList "debug".toList true → initTemperature rd nm file csv step = .ub) ∧
    (Switch rd file "THERMAL".toList "debug".toList false → ∃ l, initTemperature rd nm file csv step = .ok l ∧
      (d.type ≠ 1 → d.type ≠ 2 → ∀ fuel lfuel e timeEnd, l.propagate fuel lfuel e timeEnd = .ub)) := by
  obtain ⟨x, -, -, e⟩ := load_ok hs step hn hl ht hw hc hr hc0 hr0
  have hkl : k < s.nodes.length := (List.getElem?_eq_some_iff.1 hd).1
  have hdk : s.nodes[k] = d := (List.getElem?_eq_some_iff.1 hd).2
  have hfull : rowFull s.conductance s.nodes.length k = false ∨ rowFull s.radiation s.nodes.length k = false := by
    rcases hk with hk | hk
    · left; unfold rowFull; rw [List.getD_eq_getElem?_getD, hk, Option.getD_some, decide_eq_false (by omega)]
    · right; unfold rowFull; rw [List.getD_eq_getElem?_getD, hk, Option.getD_some, decide_eq_false (by omega)]
  constructor
  · intro hdbg
    rw [e, InitWheel.Switch.read hdbg]
    unfold printParams
    rw [if_pos]
    refine ⟨rfl, k, ?_, ?_⟩
    · simpa using hkl
    · simpa using hfull
  · intro hdbg
    rw [InitWheel.Switch.read hdbg] at e
    refine ⟨_, e.trans (if_neg (fun h => absurd h.1 (by decide))), ?_⟩
    intro t1 t2 fuel lfuel en timeEnd
    unfold Loaded.propagate
    rw [if_pos]
    refine ⟨rfl, ⟨k, by simpa using hkl⟩, ?_, ?_⟩
    · show ((s.nodes.map nodeOf)[k]'_).kind = _
      rw [List.getElem_map, hdk, nodeOf_kind (ThermalSheet.range hs d (List.mem_of_getElem? hd)).1, if_neg t1, if_neg t2]
    · simpa using hfull

/-- **C189 (missing files).** With the calculation switched on, a missing or empty table of loads is undefined behaviour, and so is, after loads as in a sheet, one of nodes. -/
theorem C189_missing (h1 : Switch rd file "THERMAL".toList "calculation".toList true) (dir : Str) (h2 : Text rd file "THERMAL".toList "thermal_file_directory".toList dir)
    (hm : csv (dir ++ "heatload.csv".toList) = []) (step : ℝ) : initTemperature rd nm file csv step = .ub := by
  unfold initTemperature
  dsimp only
  rw [InitWheel.Switch.read h1, if_neg (by decide), h2.read]
  unfold loadNetwork readLoads
  rw [hm, read_empty]; rfl

/-- A sheet whose other tables cannot be opened: `csv'` differs from files of the sheet in `node.csv` or `heaters.csv` only, and this file is empty. -/
theorem C189_missing_table (s : ThermalSheet) (hs : s.In rd nm file csv) (hf : s.Fits) (dir : Str) (hdir : Text rd file "THERMAL".toList "thermal_file_directory".toList dir)
    (csv' : Str → Str) (name : Str) (hname : name = "node.csv".toList ∨ name = "heaters.csv".toList) (hm : csv' (dir ++ name) = [])
    (hrest : ∀ path, path ≠ dir ++ name → csv' path = csv path) (step : ℝ) : initTemperature rd nm file csv' step = .ub := by
  obtain ⟨h1, h2, dir', h3, ⟨timeRow, loadRows, a1, a2, a3⟩, ⟨nh, nodeRows, b1, b2⟩, -⟩ := hs
  have hdd : dir' = dir := h3.read.symm.trans hdir.read
  subst hdd
  have hloads := loads_ok a2 a3 hf.times hf.load
  have hnodes : makeAll (initNode nm) nodeRows = .ok (s.nodes.map nodeOf) := makeAll_ok _ nodeOf (b2.imp fun _ _ q => initNode_ok q)
  unfold initTemperature
  dsimp only
  rw [InitWheel.Switch.read h1, if_neg (by decide), h3.read]
  unfold loadNetwork readLoads
  rcases hname with rfl | rfl
  · rw [hrest (dir' ++ "heatload.csv".toList) (fun q => absurd (List.append_cancel_left q) (by decide)), hm, read_empty, IsTable.read a1]
    simp only [body, Res.bind, List.getD_cons_zero]
    rw [hloads]
  · rw [hrest (dir' ++ "heatload.csv".toList) (fun q => absurd (List.append_cancel_left q) (by decide)),
      hrest (dir' ++ "node.csv".toList) (fun q => absurd (List.append_cancel_left q) (by decide)), hm, read_empty, IsTable.read a1, IsTable.read b1]
    simp only [body, Res.bind, List.getD_cons_zero]
    rw [hloads, hnodes]
    simp only [List.length_map, hf.loads, if_true]

/-- **C189 (wrong number of cells).** A row of `node.csv` that has not twelve cells, or a row of `heaters.csv` that has not four — the rows before it describing nodes or
heaters — stops the program, whatever comes after it. -/
theorem C189_cells (s : ThermalSheet) (hs : s.In rd nm file csv) (hf : s.Fits) (dir : Str) (hdir : Text rd file "THERMAL".toList "thermal_file_directory".toList dir)
    (csv' : Str → Str) (header bad : List Str) (good rest : List (List Str)) (step : ℝ) :
    (IsTable (csv' (dir ++ "node.csv".toList)) (header :: (good ++ bad :: rest)) → (∀ path, path ≠ dir ++ "node.csv".toList → csv' path = csv path) →
      (∀ row ∈ good, ∃ d : NodeSheet, d.In nm row) → bad.length ≠ 12 → initTemperature rd nm file csv' step = .throws) ∧
    (IsTable (csv' (dir ++ "heaters.csv".toList)) (header :: (good ++ bad :: rest)) → (∀ path, path ≠ dir ++ "heaters.csv".toList → csv' path = csv path) →
      (∀ row ∈ good, ∃ d : HeaterSheet, d.In nm row) → bad.length ≠ 4 → initTemperature rd nm file csv' step = .throws) := by
  obtain ⟨h1, h2, dir', h3, ⟨timeRow, loadRows, a1, a2, a3⟩, ⟨nh, nodeRows, b1, b2⟩, -⟩ := hs
  have hdd : dir' = dir := h3.read.symm.trans hdir.read
  subst hdd
  have hloads := loads_ok a2 a3 hf.times hf.load
  have hnodes : makeAll (initNode nm) nodeRows = .ok (s.nodes.map nodeOf) := makeAll_ok _ nodeOf (b2.imp fun _ _ q => initNode_ok q)
  unfold initTemperature
  dsimp only
  rw [InitWheel.Switch.read h1, if_neg (by decide), h3.read]
  unfold loadNetwork readLoads
  constructor
  · intro t hrest hg hb
    rw [hrest (dir' ++ "heatload.csv".toList) (fun q => absurd (List.append_cancel_left q) (by decide)), IsTable.read t, IsTable.read a1]
    have hbad : initNode nm bad = .throws := by unfold initNode; exact if_neg hb
    have := (makeAll_stop (f := initNode nm) (a := bad) (rest := rest) (good := good) (fun g h => by
      obtain ⟨d, hd⟩ := hg g h; exact ⟨_, initNode_ok hd⟩) _ rfl).1 hbad
    simp only [body, Res.bind, List.getD_cons_zero]
    rw [hloads, this]
  · intro t hrest hg hb
    rw [hrest (dir' ++ "heatload.csv".toList) (fun q => absurd (List.append_cancel_left q) (by decide)),
      hrest (dir' ++ "node.csv".toList) (fun q => absurd (List.append_cancel_left q) (by decide)), IsTable.read t, IsTable.read a1, IsTable.read b1]
    have hbad : initHeater nm bad = .throws := by unfold initHeater; exact if_neg hb
    have := (makeAll_stop (f := initHeater nm) (a := bad) (rest := rest) (good := good) (fun g h => by
      obtain ⟨d, hd⟩ := hg g h; obtain ⟨id, e⟩ := initHeater_ok hd; exact ⟨_, e⟩) _ rfl).1 hbad
    simp only [body, Res.bind, List.getD_cons_zero]
    rw [hloads, hnodes]
    simp only [List.length_map, hf.loads, if_true]
    rw [this]

/-- **C189 (switched off).** With the calculation switched off no table is read, and no history of calls of `Propagate` does anything. -/
theorem C189_disabled (h : Switch rd file "THERMAL".toList "calculation".toList false) (step : ℝ) :
    ∃ l, initTemperature rd nm file csv step = .ok l ∧ l.nodes = [] ∧ l.heaters = [] ∧
      ∀ calls : List (ℕ × ℕ × Env × ℝ), calls.foldlM (fun (net : Network l.nodes.length) c => net.propagate c.1 c.2.1 c.2.2.1 c.2.2.2) l.network = .ok l.network := by
  refine ⟨disabled, ?_, rfl, rfl, ?_⟩
  · unfold initTemperature
    dsimp only
    rw [InitWheel.Switch.read h, if_pos rfl]
  · intro calls
    induction calls with
    | nil => rfl
    | cons c calls ih => rw [List.foldlM_cons]; exact ih

/-- **C189 (what matters).** The network depends on the section THERMAL and on the five tables in the named directory only. -/
theorem C189_independent (file' : File) (csv' : Str → Str) (h : file' "THERMAL".toList = file "THERMAL".toList)
    (hcsv : ∀ name ∈ ["heatload.csv", "node.csv", "heaters.csv", "cij.csv", "rij.csv"], ∀ dir,
      dir = readString rd.paths (file "THERMAL".toList) "thermal_file_directory".toList → csv' (dir ++ name.toList) = csv (dir ++ name.toList)) (step : ℝ) :
    initTemperature rd nm file' csv' step = initTemperature rd nm file csv step := by
  unfold initTemperature
  rw [h]
  dsimp only
  unfold loadNetwork
  rw [hcsv "heatload.csv" (by simp) _ rfl, hcsv "node.csv" (by simp) _ rfl, hcsv "heaters.csv" (by simp) _ rfl, hcsv "cij.csv" (by simp) _ rfl, hcsv "rij.csv" (by simp) _ rfl]

/-! ## Concrete files -/

/-- Texts are read as their first digit. -/
def digit (c : Str) : ℕ := (c.headD '0').toNat % 16
noncomputable def exNumbers : Numbers where
  stoi := fun c => .ok (digit c)
  stod := fun c => .ok (digit c)
  range := by
    intro c n h
    have : (digit c : ℤ) = n := by injection h
    have h2 : digit c < 16 := Nat.mod_lt _ (by norm_num)
    omega

theorem exCell (c : Str) (n : ℕ) (x : ℝ) (h : digit c = n) (hx : (n : ℝ) = x) : Numbers.Cell exNumbers c x := by
  show Res.ok ((digit c : ℕ) : ℝ) = _
  rw [h, hx]
theorem exWhole (c : Str) (n : ℕ) (x : ℤ) (h : digit c = n) (hx : (n : ℤ) = x) : Numbers.Whole exNumbers c x := by
  show Res.ok ((digit c : ℕ) : ℤ) = _
  rw [h, hx]

/-- Two nodes, the first with a heater; `ty` is the type of the second. The second row of the conductance matrix has the cells `row`. -/
def exTable (ty : String) (row : List String) (name : String) : List (List String) :=
  if name = "heatload" then [["time", "0", "9"], ["1", "5", "5"], ["2", "3", "3"]]
  else if name = "node" then [["id"], ["1", "a", "0", "1", "2", "1", "1", "1", "1", "0", "0", "9"], ["2", "b", ty, "0", "2", "1", "1", "1", "0", "1", "0", "9"]]
  else if name = "heaters" then [["id"], ["1", "6", "5", "8"]]
  else if name = "cij" then [["c"], ["1", "0", "2"], row]
  else [["c"], ["1", "0", "2"], ["2", "2", "0"]]
def exRows (ty : String) (row : List String) (name : String) : List (List Str) := (exTable ty row name).map (List.map String.toList)
def exText (ty : String) (row : List String) (name : String) : Str := terminated '\n' ((exRows ty row name).map (join ','))
def exCsv (ty : String) (row : List String) : Str → Str := fun path =>
  if path = "d/".toList ++ "heatload.csv".toList then exText ty row "heatload"
  else if path = "d/".toList ++ "node.csv".toList then exText ty row "node"
  else if path = "d/".toList ++ "heaters.csv".toList then exText ty row "heaters"
  else if path = "d/".toList ++ "cij.csv".toList then exText ty row "cij"
  else exText ty row "rij"
def exFile : File := fun _ key =>
  if key = "calculation".toList then some "ENABLE".toList else if key = "thermal_file_directory".toList then some "d/".toList else some "DISABLE".toList
noncomputable def exReader : Reader := ⟨⟨[], [], []⟩, fun _ => 1, fun _ => 1, fun _ => []⟩

noncomputable def exSheet (ty : ℤ) (row : List ℝ) : ThermalSheet where
  solar := false
  times := [0, 9]
  loads := [[5, 5], [3, 3]]
  nodes := [⟨0, 1, 2, 1, 1, 1, ![1, 0, 0], 9⟩, ⟨ty, 0, 2, 1, 1, 1, ![0, 1, 0], 9⟩]
  heaters := [⟨6, 5, 8⟩]
  conductance := [[0, 2], row]
  radiation := [[0, 2], [2, 0]]

theorem exSheet_in (ty : String) (t : ℕ) (ht : digit ty.toList = t) (hty : ',' ∉ ty.toList ∧ '\n' ∉ ty.toList) (row : List String) (r : List ℝ)
    (hr : Values exNumbers r (row.map String.toList)) (hrow : (∀ c ∈ row.map String.toList, ',' ∉ c ∧ '\n' ∉ c) ∧ (row.map String.toList).getLast? ≠ some []) :
    (exSheet t r).In exReader exNumbers exFile (exCsv ty row) := by
  have sw : Switch exReader exFile "THERMAL".toList "solar_calc_setting".toList false :=
    ⟨"DISABLE".toList, ⟨"DISABLE".toList, (if_neg (by decide +kernel)).trans (if_neg (by decide +kernel)), by decide +kernel⟩, by decide +kernel⟩
  refine ⟨⟨"ENABLE".toList, ⟨"ENABLE".toList, if_pos rfl, by decide +kernel⟩, by simp⟩, sw, "d/".toList,
    ⟨"d/".toList, (if_neg (by decide +kernel)).trans (if_pos rfl), by decide +kernel⟩, ?_, ?_, ?_, ?_, ?_⟩
  · refine ⟨["time".toList, "0".toList, "9".toList], [["1".toList, "5".toList, "5".toList], ["2".toList, "3".toList, "3".toList]], ⟨by decide +kernel, if_pos rfl⟩, ?_, ?_⟩
    · exact ⟨_, _, rfl, .cons (exCell _ 0 _ (by decide +kernel) (by norm_num)) (.cons (exCell _ 9 _ (by decide +kernel) (by norm_num)) .nil)⟩
    · exact .cons ⟨⟨_, _, rfl, .cons (exCell _ 5 _ (by decide +kernel) (by norm_num)) (.cons (exCell _ 5 _ (by decide +kernel) (by norm_num)) .nil)⟩, _, rfl⟩
        (.cons ⟨⟨_, _, rfl, .cons (exCell _ 3 _ (by decide +kernel) (by norm_num)) (.cons (exCell _ 3 _ (by decide +kernel) (by norm_num)) .nil)⟩, _, rfl⟩ .nil)
  · refine ⟨["id".toList], [["1", "a", "0", "1", "2", "1", "1", "1", "1", "0", "0", "9"].map String.toList, ["2", "b", ty, "0", "2", "1", "1", "1", "0", "1", "0", "9"].map String.toList],
      ⟨?_, ?_⟩, ?_⟩
    · have key : ∀ c ∈ ["2", "b", "0", "1", "9"].map String.toList, ',' ∉ c ∧ '\n' ∉ c := by decide +kernel
      intro q hq
      simp only [List.mem_cons, List.not_mem_nil, or_false] at hq
      rcases hq with rfl | rfl | rfl
      · decide +kernel
      · decide +kernel
      · refine ⟨?_, by show some "9".toList ≠ some []; decide +kernel⟩
        intro c hc
        simp only [List.map_cons, List.map_nil, List.mem_cons, List.not_mem_nil, or_false] at hc key
        rcases hc with rfl | rfl | rfl | rfl | rfl | rfl | rfl | rfl | rfl | rfl | rfl | rfl <;> first | exact hty | exact key _ (by simp)
    · exact (if_neg (by decide +kernel)).trans (if_pos rfl)
    · refine .cons ⟨_, _, _, _, _, _, _, _, _, _, _, _, _, rfl, rfl, exWhole _ 0 _ (by decide +kernel) (by norm_num), exWhole _ 1 _ (by decide +kernel) (by norm_num), ?_⟩
        (.cons ⟨_, _, _, _, _, _, _, _, _, _, _, _, _, rfl, rfl, exWhole _ t _ ht (by norm_num), exWhole _ 0 _ (by decide +kernel) (by norm_num), ?_⟩ .nil)
      · exact ⟨exCell _ 2 _ (by decide +kernel) (by norm_num), exCell _ 1 _ (by decide +kernel) (by norm_num), exCell _ 1 _ (by decide +kernel) (by norm_num),
          exCell _ 1 _ (by decide +kernel) (by norm_num), exCell _ 1 _ (by decide +kernel) (by norm_num), exCell _ 0 _ (by decide +kernel) (by norm_num),
          exCell _ 0 _ (by decide +kernel) (by show ((0 : ℕ) : ℝ) = 0; norm_num), exCell _ 9 _ (by decide +kernel) (by norm_num)⟩
      · exact ⟨exCell _ 2 _ (by decide +kernel) (by norm_num), exCell _ 1 _ (by decide +kernel) (by norm_num), exCell _ 1 _ (by decide +kernel) (by norm_num),
          exCell _ 1 _ (by decide +kernel) (by norm_num), exCell _ 0 _ (by decide +kernel) (by norm_num), exCell _ 1 _ (by decide +kernel) (by norm_num),
          exCell _ 0 _ (by decide +kernel) (by show ((0 : ℕ) : ℝ) = 0; norm_num), exCell _ 9 _ (by decide +kernel) (by norm_num)⟩
  · refine ⟨["id".toList], [["1", "6", "5", "8"].map String.toList], ⟨by decide +kernel, ?_⟩, ?_⟩
    · exact (if_neg (by decide +kernel)).trans ((if_neg (by decide +kernel)).trans (if_pos rfl))
    · exact .cons ⟨_, _, _, _, _, rfl, rfl, exCell _ 6 _ (by decide +kernel) (by norm_num), exCell _ 5 _ (by decide +kernel) (by norm_num),
        exCell _ 8 _ (by decide +kernel) (by norm_num)⟩ .nil
  · refine ⟨["c".toList], [["1", "0", "2"].map String.toList, row.map String.toList], ⟨?_, ?_⟩, ?_⟩
    · intro q hq
      simp only [List.mem_cons, List.not_mem_nil, or_false] at hq
      rcases hq with rfl | rfl | rfl
      · decide +kernel
      · decide +kernel
      · exact hrow
    · exact (if_neg (by decide +kernel)).trans ((if_neg (by decide +kernel)).trans ((if_neg (by decide +kernel)).trans (if_pos rfl)))
    · exact .cons ⟨_, _, rfl, .cons (exCell _ 0 _ (by decide +kernel) (by norm_num)) (.cons (exCell _ 2 _ (by decide +kernel) (by norm_num)) .nil)⟩ (.cons hr .nil)
  · refine ⟨["c".toList], [["1", "0", "2"].map String.toList, ["2", "2", "0"].map String.toList], ⟨by decide +kernel, ?_⟩, ?_⟩
    · exact (if_neg (by decide +kernel)).trans ((if_neg (by decide +kernel)).trans ((if_neg (by decide +kernel)).trans (if_neg (by decide +kernel))))
    · exact .cons ⟨_, _, rfl, .cons (exCell _ 0 _ (by decide +kernel) (by norm_num)) (.cons (exCell _ 2 _ (by decide +kernel) (by norm_num)) .nil)⟩
        (.cons ⟨_, _, rfl, .cons (exCell _ 2 _ (by decide +kernel) (by norm_num)) (.cons (exCell _ 0 _ (by decide +kernel) (by norm_num)) .nil)⟩ .nil)

theorem exValues : Values exNumbers [2, 0] (["2", "2", "0"].map String.toList) :=
  ⟨_, _, rfl, .cons (exCell _ 2 _ (by decide +kernel) (by norm_num)) (.cons (exCell _ 0 _ (by decide +kernel) (by norm_num)) .nil)⟩
theorem exFits (t : ℤ) : (exSheet t [2, 0]).Fits := by
  constructor <;> simp [exSheet]
theorem exUsable (t : ℤ) : (exSheet t [2, 0]).Usable := by
  constructor <;> simp [exSheet]

theorem ex_in (ty : String) (t : ℕ) (ht : digit ty.toList = t) (hty : ',' ∉ ty.toList ∧ '\n' ∉ ty.toList) :
    (exSheet t [2, 0]).In exReader exNumbers exFile (exCsv ty ["2", "2", "0"]) :=
  exSheet_in ty t ht hty _ _ exValues ⟨by decide +kernel, by decide +kernel⟩

/-- The files make a network, whose second node, a boundary node, keeps its 9 K; the heater of the first is switched by that node. -/
example (e : Env) : ∃ l : Loaded, initTemperature exReader exNumbers exFile (exCsv "1" ["2", "2", "0"]) 0.1 = .ok l ∧ ∃ N, ∀ fuel ≥ N, ∃ net,
    l.propagate fuel 2 e 7 = .ok net ∧ net.time = 7 := by
  obtain ⟨l, h1, N, hN⟩ := C189_propagate (exSheet 1 [2, 0]) (ex_in "1" 1 (by decide +kernel) (by decide +kernel)) (exFits 1) (exUsable 1) 0.1 (by norm_num) e 7 (by norm_num) 2 le_rfl
  exact ⟨l, h1, N, fun fuel hf => by obtain ⟨net, g1, g2, -⟩ := hN fuel hf; exact ⟨net, g1, g2⟩⟩

/-- With two diffusive nodes the heat content after 7 s is 2·9 + 2·9 J + 7 s · (5 + 3) W. -/
example (e : Env) (he : e.infrared = 0) : ∃ l : Loaded, initTemperature exReader exNumbers exFile (exCsv "0" ["2", "2", "0"]) 0.1 = .ok l ∧ ∃ N, ∀ fuel ≥ N, ∃ net,
    l.propagate fuel 2 e 7 = .ok net ∧ (∑ i, (net.nodes i).capacity * (net.nodes i).temperature) = 92 := by
  obtain ⟨l, h1, N, hN⟩ := C189_energy (exSheet 0 [2, 0]) (ex_in "0" 0 (by decide +kernel) (by decide +kernel)) (exFits 0) (exUsable 0) 0.1 (by norm_num) e he rfl 7 (by norm_num) 2
    le_rfl (by simp [exSheet]) (by
      intro i j a b ha hb
      rcases i with _ | _ | i <;> rcases j with _ | _ | j <;> simp [exSheet] at ha hb <;> subst ha <;> subst hb <;> rfl) (by
      intro i j a b ha hb
      rcases i with _ | _ | i <;> rcases j with _ | _ | j <;> simp [exSheet] at ha hb <;> subst ha <;> subst hb <;> rfl) (fun i => if i = 0 then 5 else 3) (by
      intro i t ht
      rcases i with _ | _ | i <;> simp [exSheet] at ht <;> subst ht <;> simp)
  refine ⟨l, h1, N, fun fuel hf => ?_⟩
  obtain ⟨net, g1, g2⟩ := hN fuel hf
  refine ⟨net, g1, g2.trans ?_⟩
  simp [exSheet, List.range_succ]
  norm_num

/-- A second row of the conductances with one element only. -/
example : ∃ l : Loaded, initTemperature exReader exNumbers exFile (exCsv "0" ["2", "2"]) 0.1 = .ok l ∧ ∀ fuel lfuel e timeEnd, l.propagate fuel lfuel e timeEnd = .ub := by
  have hv : Values exNumbers [2] (["2", "2"].map String.toList) := ⟨_, _, rfl, .cons (exCell _ 2 _ (by decide +kernel) (by norm_num)) .nil⟩
  have hs := exSheet_in "0" 0 (by decide +kernel) (by decide +kernel) ["2", "2"] [2] hv ⟨by decide +kernel, by decide +kernel⟩
  obtain ⟨-, h⟩ := C189_short_row (exSheet 0 [2]) hs 0.1 (by simp [exSheet]) rfl (by simp [exSheet]) (by simp [exSheet]) rfl rfl (by simp [exSheet]) (by simp [exSheet]) 1 _ rfl [2]
    (.inl rfl) (by simp [exSheet])
  obtain ⟨l, h1, h2⟩ := h ⟨"DISABLE".toList, ⟨"DISABLE".toList, (if_neg (by decide +kernel)).trans (if_neg (by decide +kernel)), by decide +kernel⟩, by decide +kernel⟩
  exact ⟨l, h1, h2 (by norm_num) (by norm_num)⟩

/-- A row of one cell in `node.csv`. -/
example (step : ℝ) : initTemperature exReader exNumbers exFile
    (fun path => if path = "d/".toList ++ "node.csv".toList then "id\n1\n".toList else exCsv "0" ["2", "2", "0"] path) step = .throws :=
  (C189_cells (exSheet 0 [2, 0]) (ex_in "0" 0 (by decide +kernel) (by decide +kernel)) (exFits 0) "d/".toList
    ⟨"d/".toList, (if_neg (by decide +kernel)).trans (if_pos rfl), by decide +kernel⟩ _ ["id".toList] ["1".toList] [] [] step).1
    ⟨by decide +kernel, (if_pos rfl).trans (by decide +kernel)⟩ (fun _ h => if_neg h) (fun _ h => absurd h (by simp)) (by decide)

end S2E.InitThermal
