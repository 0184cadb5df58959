import Verif.Props.Log
import Verif.Spec.LogColumns
import Mathlib.Data.List.Nodup
import Mathlib.Data.List.Pairwise
import Mathlib.Data.Nat.Digits.Defs
/-! # C195: reading the log by column name -/
namespace S2E.LogColumns
open S2E.Log S2E.LogProps S2E.Csv S2E.Ini

variable {fmt : ℕ → ℝ → Str} {fmt3 : ℝ → Str}

/-! ## Lookup -/

theorem lookup_mem (A : List Column) (X Y : List Str) (h : (A.map Prod.fst).Nodup) {n t : Str} (hm : (n, t) ∈ A) :
    (A.map Prod.snd ++ Y)[(A.map Prod.fst ++ X).idxOf n]? = some t := by
  induction A with
  | nil => cases hm
  | cons a A ih =>
    simp only [List.map_cons, List.nodup_cons, List.cons_append] at h ⊢
    rcases List.mem_cons.1 hm with rfl | hm
    · simp
    · have hne : a.1 ≠ n := fun e => h.1 (e ▸ List.mem_map.2 ⟨(n, t), hm, rfl⟩)
      rw [List.idxOf_cons_ne _ hne]
      exact ih h.2 hm

/-! ## The cells of every part -/

theorem row3 (hf : ∀ p x, Clean (fmt p x)) (p : ℕ) (v : Vec) : Row (vectorValue fmt p v) [fmt p (v 0), fmt p (v 1), fmt p (v 2)] := by
  have h := row_vectorValue hf p v
  exact h

theorem row4 (hf : ∀ p x, Clean (fmt p x)) (p : ℕ) (q : Fin 4 → ℝ) :
    Row (quaternionValue fmt p q) [fmt p (q 0), fmt p (q 1), fmt p (q 2), fmt p (q 3)] := by
  have h := row_vectorValue hf p q
  exact h

theorem row_gnss (hf : ∀ p x, Clean (fmt p x)) (c : Config) (s : State) :
    Row (gnssValue fmt s.gnssPosition s.gnssClock) ((columns fmt fmt3 c s .gnss).map Prod.snd) := by
  unfold gnssValue
  have e : (fun (t : Str) (i : ℕ) => t ++ vectorValue fmt 16 (s.gnssPosition i) ++ scalarValue fmt 6 (s.gnssClock i)) =
      fun t i => t ++ (vectorValue fmt 16 (s.gnssPosition i) ++ scalarValue fmt 6 (s.gnssClock i)) := by
    funext t i; rw [List.append_assoc]
  rw [e]
  simp only [columns, List.map_flatMap]
  exact Row.foldl _ _ _ (fun i _ => (row3 hf 16 _).append (row_scalarValue hf 6 _))

theorem zipIdx_flatMap {α β : Type} (l : List α) (g : ℕ → List β) : ∀ k, (l.zipIdx k).flatMap (fun x => g x.2) = (List.range' k l.length).flatMap g := by
  induction l with
  | nil => intro k; rfl
  | cons a l ih => intro k; simp [List.zipIdx_cons, List.range'_succ, ih]

theorem zipIdx_flatMap_fst {α β : Type} (l : List α) (g : α → List β) : ∀ k, (l.zipIdx k).flatMap (fun x => g x.1) = l.flatMap g := by
  induction l with
  | nil => intro k; rfl
  | cons a l ih => intro k; simp [List.zipIdx_cons, ih]

theorem row_bodies (hf : ∀ p x, Clean (fmt p x)) (bodies : List Str) (origin frame : String) (pos vel : ℕ → ℝ) :
    Row (celestialValue fmt bodies.length pos vel) ((bodies.zipIdx.flatMap (fun b => bodyColumns fmt b.1 origin frame
      (fun j => pos (b.2 * 3 + j)) (fun j => vel (b.2 * 3 + j)))).map Prod.snd) := by
  have h := row_celestialValue fmt hf bodies.length pos vel
  rw [List.map_flatMap]
  simp only [bodyColumns, List.map_cons, List.map_nil]
  rw [zipIdx_flatMap bodies (fun i => [fmt 6 (pos (i * 3 + 0)), fmt 6 (pos (i * 3 + 1)), fmt 6 (pos (i * 3 + 2)),
    fmt 6 (vel (i * 3 + 0)), fmt 6 (vel (i * 3 + 1)), fmt 6 (vel (i * 3 + 2))]) 0, ← List.range_eq_range']
  exact h

theorem row_bodyNames (bodies : List Str) (hb : ∀ b ∈ bodies, Clean b) (origin frame : String) (ho : Clean origin.toList) (hfr : Clean frame.toList)
    (pos vel : ℕ → ℝ) :
    Row (celestialHeader origin.toList frame.toList bodies) ((bodies.zipIdx.flatMap (fun b => bodyColumns fmt b.1 origin frame
      (fun j => pos (b.2 * 3 + j)) (fun j => vel (b.2 * 3 + j)))).map Prod.fst) := by
  have h := row_celestialHeader origin.toList frame.toList ho hfr bodies hb
  rw [List.map_flatMap]
  simp only [bodyColumns, List.map_cons, List.map_nil]
  rw [zipIdx_flatMap_fst bodies (fun b => [b ++ ("_position" ++ origin ++ "_" ++ frame ++ "_x[m]").toList,
    b ++ ("_position" ++ origin ++ "_" ++ frame ++ "_y[m]").toList, b ++ ("_position" ++ origin ++ "_" ++ frame ++ "_z[m]").toList,
    b ++ ("_velocity" ++ origin ++ "_" ++ frame ++ "_x[m/s]").toList, b ++ ("_velocity" ++ origin ++ "_" ++ frame ++ "_y[m/s]").toList,
    b ++ ("_velocity" ++ origin ++ "_" ++ frame ++ "_z[m/s]").toList]) 0]
  have e : (fun name : Str => (List.range 3).map (vectorColumn (name ++ "_position".toList ++ origin.toList) frame.toList "m".toList 3) ++
      (List.range 3).map (vectorColumn (name ++ "_velocity".toList ++ origin.toList) frame.toList "m/s".toList 3)) =
      fun b => [b ++ ("_position" ++ origin ++ "_" ++ frame ++ "_x[m]").toList,
    b ++ ("_position" ++ origin ++ "_" ++ frame ++ "_y[m]").toList, b ++ ("_position" ++ origin ++ "_" ++ frame ++ "_z[m]").toList,
    b ++ ("_velocity" ++ origin ++ "_" ++ frame ++ "_x[m/s]").toList, b ++ ("_velocity" ++ origin ++ "_" ++ frame ++ "_y[m/s]").toList,
    b ++ ("_velocity" ++ origin ++ "_" ++ frame ++ "_z[m/s]").toList] := by
    funext b
    simp [List.range_succ, vectorColumn, axisName, List.append_assoc]
  rw [e] at h
  exact h

theorem row_nodes_value (hf : ∀ p x, Clean (fmt p x)) (nodes : List (NodeInfo × (Fin 5 → ℝ))) (k : Fin 5) :
    Row (nodes.foldl (fun t x => if !x.1.isBoundary then t ++ scalarValue fmt 6 (x.2 k) else t) [])
      (nodes.flatMap (fun x => if x.1.isBoundary then [] else [fmt 6 (x.2 k)])) := by
  have e : (fun (t : Str) (x : NodeInfo × (Fin 5 → ℝ)) => if !x.1.isBoundary then t ++ scalarValue fmt 6 (x.2 k) else t) =
      fun t x => t ++ (if x.1.isBoundary then [] else scalarValue fmt 6 (x.2 k)) := by
    funext t x; cases x.1.isBoundary <;> simp
  rw [e]
  refine Row.foldl _ _ _ (fun x _ => ?_)
  cases x.1.isBoundary
  · exact row_scalarValue hf 6 _
  · exact Row.nil

theorem row_nodes_header (nodes : List NodeInfo) (hn : ∀ x ∈ nodes, Clean x.name) (label unit : String) (hl : Clean label.toList) (hu : Clean unit.toList) :
    Row (nodes.foldl (fun t x => if !x.isBoundary then t ++ scalarHeader (label.toList ++ dec x.id ++ " (".toList ++ x.name ++ ")".toList) unit.toList else t) [])
      (nodes.flatMap (fun x => if x.isBoundary then [] else [label.toList ++ dec x.id ++ (" (".toList ++ x.name ++ (")[" ++ unit ++ "]").toList)])) := by
  have e : (fun (t : Str) (x : NodeInfo) => if !x.isBoundary then t ++ scalarHeader (label.toList ++ dec x.id ++ " (".toList ++ x.name ++ ")".toList) unit.toList else t) =
      fun t x => t ++ (if x.isBoundary then [] else scalarHeader (label.toList ++ dec x.id ++ " (".toList ++ x.name ++ ")".toList) unit.toList) := by
    funext t x; cases x.isBoundary <;> simp
  rw [e]
  refine Row.foldl _ _ _ (fun x hx => ?_)
  cases x.isBoundary
  · have h := row_scalarHeader ((((hl.append (dec_clean x.id)).append (cl " (")).append (hn x hx)).append (cl ")")) hu
    have e2 : label.toList ++ dec x.id ++ " (".toList ++ x.name ++ ")".toList ++ "[".toList ++ unit.toList ++ "]".toList =
        label.toList ++ dec x.id ++ (" (".toList ++ x.name ++ (")[" ++ unit ++ "]").toList) := by simp [List.append_assoc]
    rw [e2] at h
    exact h
  · exact Row.nil

theorem nodeColumns_fst (nodes : List NodeInfo) (label unit : String) (text : ℕ → Str) :
    (nodeColumns nodes label unit text).map Prod.fst =
      nodes.flatMap (fun x => if x.isBoundary then [] else [label.toList ++ dec x.id ++ (" (".toList ++ x.name ++ (")[" ++ unit ++ "]").toList)]) := by
  unfold nodeColumns
  rw [List.map_flatMap, ← zipIdx_flatMap_fst nodes _ 0]
  congr 1; funext x; cases x.1.isBoundary <;> rfl

theorem nodeColumns_snd (nodes : List NodeInfo) (label unit : String) (s : State) (k : Fin 5) :
    (nodeColumns nodes label unit (fun i => fmt 6 (s.thermal i k))).map Prod.snd =
      (nodes.zipIdx.map (fun x => (x.1, s.thermal x.2))).flatMap (fun x => if x.1.isBoundary then [] else [fmt 6 (x.2 k)]) := by
  unfold nodeColumns
  rw [List.map_flatMap, List.flatMap_map]
  congr 1; funext x; cases x.1.isBoundary <;> rfl

/-- No printed number and no name of a body or of a thermal node contains a comma or a line break. -/
structure Sound (fmt : ℕ → ℝ → Str) (fmt3 : ℝ → Str) (c : Config) : Prop where
  fmt : ∀ p x, Clean (fmt p x)
  fmt3 : ∀ x, Clean (fmt3 x)
  bodies : ∀ b ∈ c.bodies, Clean b
  nodes : ∀ x ∈ c.nodes, Clean x.name

theorem decInt_clean (z : ℤ) : Clean (decInt z) := by
  cases z with
  | ofNat n => exact dec_clean n
  | negSucc n => exact Clean.append (cl "-") (dec_clean (n + 1))

theorem replicate_clean (n : ℕ) (c : Char) (h : c ≠ ',' ∧ c ≠ '\n') : Clean (List.replicate n c) :=
  ⟨fun hm => h.1 (List.eq_of_mem_replicate hm).symm, fun hm => h.2 (List.eq_of_mem_replicate hm).symm⟩

theorem dateText_clean (h3 : ∀ x, Clean (fmt3 x)) (s : State) : Clean (dateText fmt3 s) := by
  have b := fun z => Clean.append (replicate_clean (4 - (decInt z).length) ' ' (by decide)) (decInt_clean z)
  have z2 := fun z => Clean.append (replicate_clean (2 - (decInt z).length) '0' (by decide)) (decInt_clean z)
  exact ((((((((((b s.year).append (cl "/")).append (z2 s.month)).append (cl "/")).append (z2 s.day)).append (cl " ")).append (z2 s.hour)).append
    (cl ":")).append (z2 s.minute)).append (cl ":")).append (h3 _)

theorem row_time (h : Sound fmt fmt3 c) (s : State) (hd : (dateText fmt3 s).length ≤ 98) :
    Row (timeValue fmt fmt3 s) ((columns fmt fmt3 c s .time).map Prod.snd) := by
  have e : timeValue fmt fmt3 s = scalarValue fmt 6 s.elapsed ++ (dateText fmt3 s ++ [',']) := by
    unfold timeValue
    congr 1
    exact List.take_of_length_le (by
      show (dateText fmt3 s ++ [',']).length ≤ 99
      rw [List.length_append]; simp only [List.length_cons, List.length_nil]; omega)
  rw [e]
  exact (row_scalarValue h.fmt 6 _).append (Row.single (dateText_clean h.fmt3 s))

theorem row_value (h : Sound fmt fmt3 c) (s : State) (hd : (dateText fmt3 s).length ≤ 98) (p : Part) :
    Row (value fmt fmt3 c s p) ((columns fmt fmt3 c s p).map Prod.snd) := by
  have hf := h.fmt
  cases p with
  | time => exact row_time h s hd
  | celestial => exact row_bodies hf c.bodies _ _ _ _
  | gnss => exact row_gnss hf c s
  | attitude =>
    have a := ((((row3 hf 6 s.angularVelocity).append (row4 hf 6 s.quaternion)).append (row3 hf 6 s.torque)).append
      (row_scalarValue hf 6 s.angularMomentum)).append (row_scalarValue hf 6 s.kineticEnergy)
    show Row (attitudeValue fmt c.cantilever s) _
    unfold attitudeValue columns
    cases c.cantilever
    · exact a.append Row.nil
    · exact a.append ((row3 hf 6 s.eulerCantilever).append (row3 hf 6 s.angularVelocityCantilever))
  | orbit => exact (((((((row3 hf 16 _).append (row3 hf 16 _)).append (row3 hf 10 _)).append (row3 hf 10 _)).append (row3 hf 10 _)).append
      (row_scalarValue hf 6 _)).append (row_scalarValue hf 6 _)).append (row_scalarValue hf 6 _)
  | temperature =>
    show Row (thermalValue fmt c.nodes s) _
    unfold thermalValue temperatureValue columns
    simp only [List.map_append, nodeColumns_snd]
    exact ((((row_nodes_value hf _ 0).append (row_nodes_value hf _ 1)).append (row_nodes_value hf _ 2)).append (row_nodes_value hf _ 3)).append
      (row_nodes_value hf _ 4)
  | geomagnetic => exact (row3 hf 6 _).append (row3 hf 6 _)
  | radiation => exact (row_scalarValue hf 6 _).append (row_scalarValue hf 6 _)
  | albedo => exact (row_scalarValue hf 6 _).append (row_scalarValue hf 6 _)
  | infrared => exact ((row_scalarValue hf 6 _).append (row_scalarValue hf 6 _)).append (row_scalarValue hf 6 _)
  | atmosphere => exact row_scalarValue hf 6 _
  | localCelestial => exact row_bodies hf c.bodies _ _ _ _
  | gravityGradient => exact row3 hf 6 _
  | radiationPressure => exact (row3 hf 6 _).append (row3 hf 6 _)
  | thirdBody => exact row3 hf 6 _
  | lunar => exact row3 hf 15 _
  | airDrag => exact (row3 hf 6 _).append (row3 hf 6 _)
  | magnetic => exact (row3 hf 6 _).append (row3 hf 6 _)
  | geopotential => exact row3 hf 15 _

/-! ## Column names -/

/-- The names of three columns. -/
def xyzNames (name tail : String) : List Str :=
  [name.toList ++ "_x".toList ++ tail.toList, name.toList ++ "_y".toList ++ tail.toList, name.toList ++ "_z".toList ++ tail.toList]

/-- The names of the columns of the cantilever. -/
def cantileverNames : List Str := xyzNames "euler_angular_cantilever_c" "[rad]" ++ xyzNames "angular_velocity_cantilever_c" "[rad/s]"

/-- The names of the parts whose names are always the same. -/
def fixedNames : Part → List Str
  | .time => ["elapsed_time[s]".toList, "time[UTC]".toList]
  | .gnss => (List.range 32).flatMap (fun i => ["GPS".toList ++ dec i ++ "_position_ecef_x[m]".toList,
      "GPS".toList ++ dec i ++ "_position_ecef_y[m]".toList, "GPS".toList ++ dec i ++ "_position_ecef_z[m]".toList,
      "GPS".toList ++ dec i ++ "_clock_offset[s]".toList])
  | .attitude => xyzNames "spacecraft_angular_velocity_b" "[rad/s]" ++
      ["spacecraft_quaternion_i2b_x".toList, "spacecraft_quaternion_i2b_y".toList, "spacecraft_quaternion_i2b_z".toList,
       "spacecraft_quaternion_i2b_w".toList] ++ xyzNames "spacecraft_torque_b" "[Nm]" ++
      ["spacecraft_total_angular_momentum[Nms]".toList, "spacecraft_kinematic_energy[J]".toList]
  | .orbit => xyzNames "spacecraft_position_i" "[m]" ++ xyzNames "spacecraft_position_ecef" "[m]" ++ xyzNames "spacecraft_velocity_i" "[m/s]" ++
      xyzNames "spacecraft_velocity_b" "[m/s]" ++ xyzNames "spacecraft_acceleration_i" "[m/s2]" ++
      ["spacecraft_latitude[rad]".toList, "spacecraft_longitude[rad]".toList, "spacecraft_altitude[m]".toList]
  | .geomagnetic => xyzNames "geomagnetic_field_at_spacecraft_position_i" "[nT]" ++ xyzNames "geomagnetic_field_at_spacecraft_position_b" "[nT]"
  | .radiation => ["solar_radiation_pressure_at_spacecraft_position[N/m2]".toList, "shadow_coefficient_at_spacecraft_position".toList]
  | .albedo => ["earth_albedo_factor".toList, "earth_albedo_W_m2".toList]
  | .infrared => ["earth_infrared_temperature_hot_side_K".toList, "earth_infrared_temperature_cold_side_K".toList, "earth_infrared_W_m2".toList]
  | .atmosphere => ["air_density_at_spacecraft_position[kg/m3]".toList]
  | .gravityGradient => xyzNames "gravity_gradient_torque_b" "[Nm]"
  | .radiationPressure => xyzNames "srp_torque_b" "[Nm]" ++ xyzNames "srp_force_b" "[N]"
  | .thirdBody => xyzNames "third_body_acceleration_i" "[m/s2]"
  | .lunar => xyzNames "lunar_gravity_acceleration_mcmf" "[m/s2]"
  | .airDrag => xyzNames "air_drag_torque_b" "[Nm]" ++ xyzNames "air_drag_force_b" "[N]"
  | .magnetic => xyzNames "spacecraft_magnetic_moment_b" "[Am2]" ++ xyzNames "magnetic_disturbance_torque_b" "[Nm]"
  | .geopotential => xyzNames "geopotential_acceleration_ecef" "[m/s2]"
  | .celestial | .localCelestial | .temperature => []

/-- The parts whose names depend on the configuration. -/
def Variable : Part → Prop
  | .celestial | .localCelestial | .temperature => True
  | _ => False

instance : DecidablePred Variable := fun p => by cases p <;> unfold Variable <;> infer_instance

theorem names_fixed (c : Config) (s : State) (p : Part) (hp : ¬ Variable p) : (columns fmt fmt3 c s p).map Prod.fst =
    fixedNames p ++ (if p = .attitude ∧ c.cantilever = true then cantileverNames else []) := by
  cases p with
  | celestial => exact absurd trivial hp
  | localCelestial => exact absurd trivial hp
  | temperature => exact absurd trivial hp
  | attitude =>
    unfold columns
    cases c.cantilever
    · rw [if_neg (by decide)]; rfl
    · rw [if_pos (show Part.attitude = Part.attitude ∧ true = true from ⟨rfl, rfl⟩)]; rfl
  | gnss =>
    rw [if_neg (fun h => absurd h.1 (by decide))]
    simp only [columns, fixedNames, List.map_flatMap, List.append_nil]; rfl
  | _ => rw [if_neg (fun h => absurd h.1 (by decide))]; rfl

theorem attitude_names : Row (attitudeHeader false) (fixedNames .attitude) ∧ Row (attitudeHeader true) (fixedNames .attitude ++ cantileverNames) := by
  unfold Row Clean; decide +kernel

theorem header_fixed (c : Config) (p : Part) (hp : ¬ Variable p) (ha : p ≠ .attitude) : header c p = header ⟨[], [], [], false, fun _ => true⟩ p := by
  cases p with
  | celestial => exact absurd trivial hp
  | localCelestial => exact absurd trivial hp
  | temperature => exact absurd trivial hp
  | attitude => exact absurd rfl ha
  | _ => rfl

theorem fixed_rows (c : Config) (p : Part) (hp : ¬ Variable p) (ha : p ≠ .attitude) : Row (header c p) (fixedNames p) := by
  cases p with
  | celestial => exact absurd trivial hp
  | localCelestial => exact absurd trivial hp
  | temperature => exact absurd trivial hp
  | attitude => exact absurd rfl ha
  | _ =>
    rw [header_fixed c _ (by decide) (by decide)]
    unfold Row Clean; decide +kernel

/-- The cells of the header of a part are the names of its columns. -/
theorem row_header (h : Sound fmt fmt3 c) (s : State) (p : Part) : Row (header c p) ((columns fmt fmt3 c s p).map Prod.fst) := by
  cases p with
  | celestial => exact row_bodyNames c.bodies h.bodies "" "i" (cl "") (cl "i") _ _
  | localCelestial => exact row_bodyNames c.bodies h.bodies "_from_spacecraft" "b" (cl "_from_spacecraft") (cl "b") _ _
  | temperature =>
    show Row (temperatureHeader c.nodes) _
    unfold temperatureHeader columns
    simp only [List.map_append, nodeColumns_fst]
    exact ((((row_nodes_header c.nodes h.nodes "temp_" "deg" (cl "temp_") (cl "deg")).append
      (row_nodes_header c.nodes h.nodes "heat_" "W" (cl "heat_") (cl "W"))).append
      (row_nodes_header c.nodes h.nodes "solar_" "W" (cl "solar_") (cl "W"))).append
      (row_nodes_header c.nodes h.nodes "albedo_" "W" (cl "albedo_") (cl "W"))).append
      (row_nodes_header c.nodes h.nodes "earthIR_" "W" (cl "earthIR_") (cl "W"))
  | attitude =>
    rw [names_fixed c s .attitude (by decide)]
    show Row (attitudeHeader c.cantilever) _
    cases hc : c.cantilever
    · rw [if_neg (by decide), List.append_nil]; exact attitude_names.1
    · rw [if_pos (show Part.attitude = Part.attitude ∧ true = true from ⟨rfl, rfl⟩)]; exact attitude_names.2
  | _ =>
    rw [names_fixed c s _ (by decide), if_neg (fun h => absurd h.1 (by decide)), List.append_nil]
    exact fixed_rows c _ (by decide) (by decide)

/-! ## Distinct names -/

def allFixed (p : Part) : List Str := fixedNames p ++ if p = .attitude then cantileverNames else []

def fixedParts : List Part := [.time, .gnss, .attitude, .orbit, .geomagnetic, .radiation, .albedo, .infrared, .atmosphere, .gravityGradient,
  .radiationPressure, .thirdBody, .lunar, .airDrag, .magnetic, .geopotential]

theorem mem_fixedParts (p : Part) (h : ¬ Variable p) : p ∈ fixedParts := by
  cases p with
  | celestial => exact absurd trivial h
  | localCelestial => exact absurd trivial h
  | temperature => exact absurd trivial h
  | _ => decide

theorem fixed_nodup : (fixedParts.flatMap allFixed).Nodup := by decide +kernel

def bodyTails (origin frame : String) : List Str :=
  [("_position" ++ origin ++ "_" ++ frame ++ "_x[m]").toList, ("_position" ++ origin ++ "_" ++ frame ++ "_y[m]").toList,
   ("_position" ++ origin ++ "_" ++ frame ++ "_z[m]").toList, ("_velocity" ++ origin ++ "_" ++ frame ++ "_x[m/s]").toList,
   ("_velocity" ++ origin ++ "_" ++ frame ++ "_y[m/s]").toList, ("_velocity" ++ origin ++ "_" ++ frame ++ "_z[m/s]").toList]

def tailsI : List Str := bodyTails "" "i"
def tailsB : List Str := bodyTails "_from_spacecraft" "b"
def nodeTails : List Str := [")[deg]".toList, ")[W]".toList]

theorem fixed_I : ∀ f ∈ fixedParts.flatMap allFixed, ∀ t ∈ tailsI, t <:+ f → f = "spacecraft".toList ++ t := by decide +kernel
theorem fixed_B : ∀ f ∈ fixedParts.flatMap allFixed, ∀ t ∈ tailsB, ¬ t <:+ f := by decide +kernel
theorem fixed_N : ∀ f ∈ fixedParts.flatMap allFixed, ∀ t ∈ nodeTails, ¬ t <:+ f := by decide +kernel
theorem tails_apart : (tailsI ++ tailsB ++ nodeTails).Pairwise (fun t u => ¬ t <:+ u ∧ ¬ u <:+ t) := by decide +kernel

/-- Two of these tails cannot end the same text. -/
theorem tail_eq {t u n : Str} (ht : t ∈ tailsI ++ tailsB ++ nodeTails) (hu : u ∈ tailsI ++ tailsB ++ nodeTails) (h1 : t <:+ n) (h2 : u <:+ n) : t = u := by
  by_contra hne
  have hs : Std.Symm (fun t u : Str => ¬ t <:+ u ∧ ¬ u <:+ t) := ⟨fun _ _ h => ⟨h.2, h.1⟩⟩
  have := tails_apart.forall ht hu hne
  rcases List.suffix_or_suffix_of_suffix h1 h2 with h | h
  · exact this.1 h
  · exact this.2 h

theorem bodies_fst (bodies : List Str) (origin frame : String) (pos vel : ℕ → ℝ) :
    (bodies.zipIdx.flatMap (fun b => bodyColumns fmt b.1 origin frame (fun j => pos (b.2 * 3 + j)) (fun j => vel (b.2 * 3 + j)))).map Prod.fst =
      bodies.flatMap (fun b => (bodyTails origin frame).map (b ++ ·)) := by
  rw [List.map_flatMap, ← zipIdx_flatMap_fst bodies _ 0]
  rfl

theorem bodies_nodup (bodies : List Str) (hb : bodies.Nodup) (tails : List Str) (ht : tails.Nodup) (hsub : ∀ t ∈ tails, t ∈ tailsI ++ tailsB ++ nodeTails) :
    (bodies.flatMap (fun b => tails.map (b ++ ·))).Nodup := by
  rw [List.nodup_flatMap]
  refine ⟨fun b _ => ht.map (fun _ _ h => List.append_cancel_left h), ?_⟩
  refine hb.imp_of_mem (fun {a b} ha hb' hab => ?_)
  intro n h1 h2
  obtain ⟨t, ht1, e1⟩ := List.mem_map.1 h1
  obtain ⟨u, hu1, e2⟩ := List.mem_map.1 h2
  have htu := tail_eq (hsub t ht1) (hsub u hu1) (n := n) ⟨a, e1⟩ ⟨b, e2⟩
  subst htu
  exact hab (List.append_cancel_right (e1.trans e2.symm))

def labels : List (String × String) := [("temp_", "deg"), ("heat_", "W"), ("solar_", "W"), ("albedo_", "W"), ("earthIR_", "W")]

def nodeName (l : String × String) (x : NodeInfo) : Str := l.1.toList ++ dec x.id ++ (" (".toList ++ x.name ++ (")[" ++ l.2 ++ "]").toList)

theorem nodes_fst (c : Config) (s : State) : (columns fmt fmt3 c s .temperature).map Prod.fst =
    labels.flatMap (fun l => (c.nodes.filter (fun x => !x.isBoundary)).map (nodeName l)) := by
  have e : ∀ l : String × String, c.nodes.flatMap (fun x => if x.isBoundary then [] else [nodeName l x]) =
      (c.nodes.filter (fun x => !x.isBoundary)).map (nodeName l) := by
    intro l
    induction c.nodes with
    | nil => rfl
    | cons a t ih =>
      rw [List.flatMap_cons, ih, List.filter_cons]
      cases a.isBoundary <;> rfl
  simp only [columns, List.map_append, nodeColumns_fst, labels, List.flatMap_cons, List.flatMap_nil, ← e, List.append_assoc, List.append_nil]
  rfl

theorem labels_apart : labels.Pairwise (fun l m => l.1.toList.head? ≠ m.1.toList.head?) := by decide

theorem nodeName_head (l : String × String) (hl : l ∈ labels) (x : NodeInfo) : (nodeName l x).head? = l.1.toList.head? := by
  have : l.1.toList ≠ [] := by
    revert l; decide
  unfold nodeName
  rw [List.append_assoc, List.head?_append_of_ne_nil _ this]

theorem nodes_nodup (nodes : List NodeInfo) (h : (nodes.map (·.id)).Nodup) : (labels.flatMap (fun l => nodes.map (nodeName l))).Nodup := by
  rw [List.nodup_flatMap]
  constructor
  · intro l _
    have hp : nodes.Pairwise (fun a b => a.id ≠ b.id) := List.pairwise_map.1 h
    refine List.pairwise_map.2 (hp.imp (fun {a b} hab he => hab ?_))
    unfold nodeName at he
    have := List.append_cancel_left (((List.append_assoc _ _ _).symm.trans he).trans (List.append_assoc _ _ _))
    exact (dec_sep (c := ' ') (by decide) this).1
  · refine labels_apart.imp_of_mem (fun {a b} ha hb hab => ?_)
    intro n h1 h2
    obtain ⟨x, _, e1⟩ := List.mem_map.1 h1
    obtain ⟨y, _, e2⟩ := List.mem_map.1 h2
    apply hab
    rw [← nodeName_head a ha x, ← nodeName_head b hb y, e1, e2]

/-- The bodies are different and none is called "spacecraft"; the nodes that are logged have different numbers. -/
structure Distinct (c : Config) : Prop where
  bodies : c.bodies.Nodup
  spacecraft : "spacecraft".toList ∉ c.bodies
  nodes : ((c.nodes.filter (fun x => !x.isBoundary)).map (·.id)).Nodup

theorem names_sub (c : Config) (s : State) (p : Part) (hp : ¬ Variable p) : ((columns fmt fmt3 c s p).map Prod.fst).Sublist (allFixed p) := by
  rw [names_fixed c s p hp]
  unfold allFixed
  refine List.Sublist.append (List.Sublist.refl _) ?_
  by_cases h : p = .attitude
  · rw [if_pos h]
    split
    · exact List.Sublist.refl _
    · exact List.nil_sublist _
  · rw [if_neg h, if_neg (fun h' => h h'.1)]

theorem part_nodup (c : Config) (hc : Distinct c) (s : State) (p : Part) : ((columns fmt fmt3 c s p).map Prod.fst).Nodup := by
  by_cases hp : Variable p
  · cases p with
    | celestial =>
      show ((c.bodies.zipIdx.flatMap _).map Prod.fst).Nodup
      rw [bodies_fst]
      exact bodies_nodup _ hc.bodies tailsI (by decide +kernel) (fun t h => List.mem_append_left _ (List.mem_append_left _ h))
    | localCelestial =>
      show ((c.bodies.zipIdx.flatMap _).map Prod.fst).Nodup
      rw [bodies_fst]
      exact bodies_nodup _ hc.bodies tailsB (by decide +kernel) (fun t h => List.mem_append_left _ (List.mem_append_right _ h))
    | temperature =>
      rw [nodes_fst]
      exact nodes_nodup _ hc.nodes
    | _ => exact absurd hp (by decide)
  · exact ((List.nodup_flatMap.1 fixed_nodup).1 p (mem_fixedParts p hp)).sublist (names_sub c s p hp)

/-- What a name of a part looks like. -/
theorem name_kind (c : Config) (s : State) (p : Part) (n : Str) (h : n ∈ (columns fmt fmt3 c s p).map Prod.fst) :
    (¬ Variable p ∧ n ∈ allFixed p) ∨ (p = .celestial ∧ ∃ b ∈ c.bodies, ∃ t ∈ tailsI, b ++ t = n) ∨
    (p = .localCelestial ∧ ∃ b ∈ c.bodies, ∃ t ∈ tailsB, b ++ t = n) ∨ (p = .temperature ∧ ∃ t ∈ nodeTails, t <:+ n) := by
  by_cases hp : Variable p
  · right
    cases p with
    | celestial =>
      left
      replace h : n ∈ (c.bodies.zipIdx.flatMap _).map Prod.fst := h
      rw [bodies_fst] at h
      obtain ⟨b, hb, hm⟩ := List.mem_flatMap.1 h
      obtain ⟨t, ht, e⟩ := List.mem_map.1 hm
      exact ⟨rfl, b, hb, t, ht, e⟩
    | localCelestial =>
      right; left
      replace h : n ∈ (c.bodies.zipIdx.flatMap _).map Prod.fst := h
      rw [bodies_fst] at h
      obtain ⟨b, hb, hm⟩ := List.mem_flatMap.1 h
      obtain ⟨t, ht, e⟩ := List.mem_map.1 hm
      exact ⟨rfl, b, hb, t, ht, e⟩
    | temperature =>
      right; right
      rw [nodes_fst] at h
      obtain ⟨l, hl, hm⟩ := List.mem_flatMap.1 h
      obtain ⟨x, _, e⟩ := List.mem_map.1 hm
      refine ⟨rfl, (")[" ++ l.2 ++ "]").toList, ?_, ?_⟩
      · clear * - hl; revert l; decide
      · rw [← e]; unfold nodeName
        exact ((List.suffix_append _ _)).trans (List.suffix_append _ _)
    | _ => exact absurd hp (by decide)
  · exact Or.inl ⟨hp, (names_sub c s p hp).subset h⟩

theorem parts_apart (c : Config) (hc : Distinct c) (s : State) (p q : Part) (n : Str) (h1 : n ∈ (columns fmt fmt3 c s p).map Prod.fst)
    (h2 : n ∈ (columns fmt fmt3 c s q).map Prod.fst) : p = q := by
  have mF : ∀ p, ¬ Variable p → n ∈ allFixed p → n ∈ fixedParts.flatMap allFixed := fun p hp h => List.mem_flatMap.2 ⟨p, mem_fixedParts p hp, h⟩
  have iI : ∀ t ∈ tailsI, t ∈ tailsI ++ tailsB ++ nodeTails := fun t h => List.mem_append_left _ (List.mem_append_left _ h)
  have iB : ∀ t ∈ tailsB, t ∈ tailsI ++ tailsB ++ nodeTails := fun t h => List.mem_append_left _ (List.mem_append_right _ h)
  have iN : ∀ t ∈ nodeTails, t ∈ tailsI ++ tailsB ++ nodeTails := fun t h => List.mem_append_right _ h
  have dIB : ∀ t ∈ tailsI, t ∉ tailsB := by decide +kernel
  have dIN : ∀ t ∈ tailsI, t ∉ nodeTails := by decide +kernel
  have dBN : ∀ t ∈ tailsB, t ∉ nodeTails := by decide +kernel
  have nI : n ∈ fixedParts.flatMap allFixed → ∀ b ∈ c.bodies, ∀ t ∈ tailsI, b ++ t ≠ n := by
    intro hF b hb t ht e
    have := fixed_I n hF t ht ⟨b, e⟩
    exact hc.spacecraft (List.append_cancel_right (e.trans this) ▸ hb)
  have nB : n ∈ fixedParts.flatMap allFixed → ∀ b ∈ c.bodies, ∀ t ∈ tailsB, b ++ t ≠ n := fun hF b _ t ht e => fixed_B n hF t ht ⟨b, e⟩
  rcases name_kind c s p n h1 with ⟨hp, m1⟩ | ⟨rfl, b, hb, t, ht, e⟩ | ⟨rfl, b, hb, t, ht, e⟩ | ⟨rfl, t, ht, e⟩ <;>
  rcases name_kind c s q n h2 with ⟨hq, m2⟩ | ⟨rfl, b', hb', t', ht', e'⟩ | ⟨rfl, b', hb', t', ht', e'⟩ | ⟨rfl, t', ht', e'⟩
  · by_contra hne
    have hpw := (List.nodup_flatMap.1 fixed_nodup).2
    have hs : Std.Symm (Function.onFun List.Disjoint allFixed) := ⟨fun _ _ h _ h1 h2 => h h2 h1⟩
    have := hpw.forall (mem_fixedParts p hp) (mem_fixedParts q hq) hne
    exact this m1 m2
  · exact absurd e' (nI (mF p hp m1) b' hb' t' ht')
  · exact absurd e' (nB (mF p hp m1) b' hb' t' ht')
  · exact absurd e' (fixed_N n (mF p hp m1) t' ht')
  · exact absurd e (nI (mF q hq m2) b hb t ht)
  · rfl
  · have := tail_eq (iI t ht) (iB t' ht') (n := n) ⟨b, e⟩ ⟨b', e'⟩
    exact absurd (this ▸ ht') (dIB t ht)
  · have := tail_eq (iI t ht) (iN t' ht') (n := n) ⟨b, e⟩ e'
    exact absurd (this ▸ ht') (dIN t ht)
  · exact absurd e (nB (mF q hq m2) b hb t ht)
  · have := tail_eq (iB t ht) (iI t' ht') (n := n) ⟨b, e⟩ ⟨b', e'⟩
    exact absurd (this ▸ ht) (dIB t' ht')
  · rfl
  · have := tail_eq (iB t ht) (iN t' ht') (n := n) ⟨b, e⟩ e'
    exact absurd (this ▸ ht') (dBN t ht)
  · exact absurd e (fixed_N n (mF q hq m2) t ht)
  · have := tail_eq (iN t ht) (iI t' ht') (n := n) e ⟨b', e'⟩
    exact absurd (this ▸ ht) (dIN t' ht')
  · have := tail_eq (iN t ht) (iB t' ht') (n := n) e ⟨b', e'⟩
    exact absurd (this ▸ ht) (dBN t' ht')
  · rfl

/-- The parts in the order of the log. -/
abbrev parts (c : Config) : List Part := globalParts ++ spacecraftParts c.center

theorem parts_nodup (c : Config) : (parts c).Nodup := by
  unfold parts spacecraftParts disturbanceParts
  split_ifs <;> decide

theorem mem_parts (c : Config) (p : Part) (hp : Logged c.center p) : p ∈ parts c := by
  unfold parts spacecraftParts disturbanceParts
  cases p with
  | lunar => rw [if_pos (show c.center = "MOON".toList from hp)]; split_ifs <;> decide
  | airDrag => rw [if_neg (show ¬ c.center ≠ "EARTH".toList from fun h => h hp)]; split_ifs <;> decide
  | magnetic => rw [if_neg (show ¬ c.center ≠ "EARTH".toList from fun h => h hp)]; split_ifs <;> decide
  | geopotential => rw [if_neg (show ¬ c.center ≠ "EARTH".toList from fun h => h hp)]; split_ifs <;> decide
  | _ => split_ifs <;> decide

theorem logged_of_mem (c : Config) (p : Part) (hp : p ∈ parts c) : Logged c.center p := by
  unfold parts spacecraftParts disturbanceParts globalParts at hp
  cases p with
  | lunar => by_contra h; rw [if_neg (show ¬ c.center = "MOON".toList from h)] at hp; revert hp; split_ifs <;> decide
  | airDrag => by_contra h; rw [if_pos (show c.center ≠ "EARTH".toList from h)] at hp; revert hp; split_ifs <;> decide
  | magnetic => by_contra h; rw [if_pos (show c.center ≠ "EARTH".toList from h)] at hp; revert hp; split_ifs <;> decide
  | geopotential => by_contra h; rw [if_pos (show c.center ≠ "EARTH".toList from h)] at hp; revert hp; split_ifs <;> decide
  | _ => trivial

/-- All columns of the parts that are logged. -/
noncomputable def allColumns (fmt : ℕ → ℝ → Str) (fmt3 : ℝ → Str) (c : Config) (s : State) : List Column :=
  ((parts c).filter c.enabled).flatMap (columns fmt fmt3 c s)

theorem all_nodup (c : Config) (hc : Distinct c) (s : State) : ((allColumns fmt fmt3 c s).map Prod.fst).Nodup := by
  unfold allColumns
  rw [List.map_flatMap, List.nodup_flatMap]
  refine ⟨fun p _ => part_nodup c hc s p, ?_⟩
  refine ((parts_nodup c).filter _).imp (fun {p q} hpq => ?_)
  intro n h1 h2
  exact hpq (parts_apart c hc s p q n h1 h2)

/-! ## The file -/

/-- A part as a source of cells. -/
noncomputable def source (fmt : ℕ → ℝ → Str) (fmt3 : ℝ → Str) (c : Config) (state : ℕ → State) (p : Part) : Source :=
  ⟨c.enabled p, (columns fmt fmt3 c (state 0) p).map Prod.fst, fun k => (columns fmt fmt3 c (state k) p).map Prod.snd⟩

theorem names_state (h : Sound fmt fmt3 c) (s s' : State) (p : Part) :
    (columns fmt fmt3 c s p).map Prod.fst = (columns fmt fmt3 c s' p).map Prod.fst := by
  rw [← (row_header h s p).columns, ← (row_header h s' p).columns]

theorem source_at (h : Sound fmt fmt3 c) (state : ℕ → State) (hd : ∀ k, (dateText fmt3 (state k)).length ≤ 98) (p : Part) (k : ℕ) :
    (source fmt fmt3 c state p).at k = loggable fmt fmt3 c (state k) p := by
  unfold Source.at loggable source
  rw [← (row_header h (state 0) p).1, ← (row_value h (state k) (hd k) p).1]

theorem source_ok (h : Sound fmt fmt3 c) (state : ℕ → State) (hd : ∀ k, (dateText fmt3 (state k)).length ≤ 98) (p : Part) :
    (source fmt fmt3 c state p).Ok := by
  refine ⟨(row_header h (state 0) p).2, fun k => ⟨?_, (row_value h (state k) (hd k) p).2⟩⟩
  show ((columns fmt fmt3 c (state k) p).map Prod.snd).length = ((columns fmt fmt3 c (state 0) p).map Prod.fst).length
  rw [names_state h (state 0) (state k) p, List.length_map, List.length_map]

theorem run_eq (l : Logger) (xs : List Source) (list : ℕ → List Loggable) (h : ∀ k, list k = xs.map (Source.at · k)) (n : ℕ) :
    writeRun l list n = writeLog l xs n := by
  induction n with
  | zero => unfold writeRun writeLog Logger.withList; rw [h]
  | succ n ih => unfold writeRun writeLog Logger.withList; rw [ih, h]

theorem headerCells_eq (h : Sound fmt fmt3 c) (state : ℕ → State) (others : List Source) (k : ℕ) :
    headerCells ((parts c).map (source fmt fmt3 c state) ++ others) = (allColumns fmt fmt3 c (state k)).map Prod.fst ++ headerCells others := by
  unfold headerCells allColumns
  rw [List.filter_append, List.flatMap_append, List.filter_map, List.flatMap_map, List.map_flatMap]
  congr 1
  show ((parts c).filter c.enabled).flatMap (fun p => (columns fmt fmt3 c (state 0) p).map Prod.fst) = _
  congr 1; funext p; exact names_state h _ _ p

theorem valueCells_eq (state : ℕ → State) (others : List Source) (k : ℕ) :
    valueCells ((parts c).map (source fmt fmt3 c state) ++ others) k = (allColumns fmt fmt3 c (state k)).map Prod.snd ++ valueCells others k := by
  unfold valueCells allColumns
  rw [List.filter_append, List.flatMap_append, List.filter_map, List.flatMap_map, List.map_flatMap]
  rfl

/-- The table read back from the log file of a run with `n` outputs. -/
noncomputable def runTable (fmt : ℕ → ℝ → Str) (fmt3 : ℝ → Str) (c : Config) (state : ℕ → State) (others : List Source) (l : Logger) (n : ℕ) :
    List (List Str) :=
  readCsvString (writeRun l (fun k => logList fmt fmt3 c (state k) (others.map (Source.at · k))) n).file

theorem table_rows (h : Sound fmt fmt3 c) (state : ℕ → State) (hd : ∀ k, (dateText fmt3 (state k)).length ≤ 98) (others : List Source)
    (ho : ∀ x ∈ others, x.Ok) (l : Logger) (hl : l.isEnabled = true) (h0 : l.file = []) (n k : ℕ) (hk : k < n) :
    (runTable fmt fmt3 c state others l n)[0]? = some ((allColumns fmt fmt3 c (state k)).map Prod.fst ++ headerCells others) ∧
    (runTable fmt fmt3 c state others l n)[k + 1]? = some ((allColumns fmt fmt3 c (state k)).map Prod.snd ++ valueCells others k) := by
  have e := run_eq l ((parts c).map (source fmt fmt3 c state) ++ others) (fun k => logList fmt fmt3 c (state k) (others.map (Source.at · k))) (by
    intro k
    simp only [logList, List.map_append, List.map_map]
    congr 1
    rw [← List.map_append]
    refine (List.map_congr_left fun p _ => ?_).symm
    exact source_at h state hd p k) n
  unfold runTable
  rw [e]
  have C := C51_file l ((parts c).map (source fmt fmt3 c state) ++ others) hl h0 (by
    intro x hx
    rcases List.mem_append.1 hx with hx | hx
    · obtain ⟨p, _, rfl⟩ := List.mem_map.1 hx
      exact source_ok h state hd p
    · exact ho x hx) n
  refine ⟨?_, ?_⟩
  · rw [C.2.1, headerCells_eq h state others k]
  · rw [C.2.2.1 k hk, valueCells_eq]

/-- **C195.** Reading by name: whatever else is logged after the spacecraft (components, more spacecraft, ground stations), under the first
column with the name of a quantity stands, in the line of every output, that quantity as it was at that output. -/
theorem C195_by_name (c : Config) (h : Sound fmt fmt3 c) (hc : Distinct c) (state : ℕ → State) (hd : ∀ k, (dateText fmt3 (state k)).length ≤ 98)
    (others : List Source) (ho : ∀ x ∈ others, x.Ok) (l : Logger) (hl : l.isEnabled = true) (h0 : l.file = []) (n k : ℕ) (hk : k < n)
    (p : Part) (hp : Logged c.center p) (he : c.enabled p = true) (name text : Str) (hm : (name, text) ∈ columns fmt fmt3 c (state k) p) :
    byName (runTable fmt fmt3 c state others l n) name k = some text := by
  obtain ⟨r0, r1⟩ := table_rows h state hd others ho l hl h0 n k hk
  unfold byName
  rw [r0, r1]
  exact lookup_mem _ _ _ (all_nodup c hc (state k)) (List.mem_flatMap.2 ⟨p, List.mem_filter.2 ⟨mem_parts c p hp, he⟩, hm⟩)

/-- **C195.** The first line of the file consists of the names of the columns of the parts that are logged for the centre body and whose log is
switched on, all different, and then of the names of whatever is registered after the spacecraft. -/
theorem C195_names (c : Config) (h : Sound fmt fmt3 c) (hc : Distinct c) (state : ℕ → State) (hd : ∀ k, (dateText fmt3 (state k)).length ≤ 98)
    (others : List Source) (ho : ∀ x ∈ others, x.Ok) (l : Logger) (hl : l.isEnabled = true) (h0 : l.file = []) (n k : ℕ) (hk : k < n) :
    ∃ names, (runTable fmt fmt3 c state others l n)[0]? = some (names ++ headerCells others) ∧ names.Nodup ∧
      ∀ name, name ∈ names ↔ ∃ p text, Logged c.center p ∧ c.enabled p = true ∧ (name, text) ∈ columns fmt fmt3 c (state k) p := by
  refine ⟨_, (table_rows h state hd others ho l hl h0 n k hk).1, all_nodup c hc (state k), fun name => ?_⟩
  constructor
  · intro hm
    obtain ⟨⟨a, t⟩, hm', rfl⟩ := List.mem_map.1 hm
    obtain ⟨p, hp, hm''⟩ := List.mem_flatMap.1 hm'
    obtain ⟨hp, he⟩ := List.mem_filter.1 hp
    exact ⟨p, t, logged_of_mem c p hp, he, hm''⟩
  · rintro ⟨p, t, hp, he, hm⟩
    exact List.mem_map.2 ⟨(name, t), List.mem_flatMap.2 ⟨p, List.mem_filter.2 ⟨mem_parts c p hp, he⟩, hm⟩, rfl⟩

/-- **C195.** A second spacecraft in the same log has the column names of the first: a column of its dynamics, environment or disturbances whose
part is also logged for the first spacecraft shows, when looked up by name, the quantity of the first spacecraft. -/
theorem C195_second (c c2 : Config) (h : Sound fmt fmt3 c) (h2 : Sound fmt fmt3 c2) (hc : Distinct c) (state state2 : ℕ → State)
    (hd : ∀ k, (dateText fmt3 (state k)).length ≤ 98) (hd2 : ∀ k, (dateText fmt3 (state2 k)).length ≤ 98)
    (hb : c2.bodies = c.bodies) (hcan : c2.cantilever = c.cantilever) (hnodes : c2.nodes = c.nodes)
    (l : Logger) (hl : l.isEnabled = true) (h0 : l.file = []) (n k : ℕ) (hk : k < n)
    (p : Part) (hp : Logged c.center p) (he : c.enabled p = true) (name text2 : Str) (hm : (name, text2) ∈ columns fmt fmt3 c2 (state2 k) p) :
    ∃ text, (name, text) ∈ columns fmt fmt3 c (state k) p ∧
      byName (runTable fmt fmt3 c state ((spacecraftParts c2.center).map (source fmt fmt3 c2 state2)) l n) name k = some text := by
  have e : (columns fmt fmt3 c2 (state2 k) p).map Prod.fst = (columns fmt fmt3 c (state k) p).map Prod.fst := by
    rw [← (row_header h2 (state2 k) p).columns, ← (row_header h (state k) p).columns]
    congr 1
    cases p <;> simp only [header, hb, hcan, hnodes]
  have : name ∈ (columns fmt fmt3 c (state k) p).map Prod.fst := e ▸ List.mem_map.2 ⟨_, hm, rfl⟩
  obtain ⟨⟨a, t⟩, ht, rfl⟩ := List.mem_map.1 this
  refine ⟨t, ht, C195_by_name c h hc state hd _ ?_ l hl h0 n k hk p hp he _ t ht⟩
  intro x hx
  obtain ⟨q, _, rfl⟩ := List.mem_map.1 hx
  exact source_ok h2 state2 hd2 q

/-- Two decimal digits. -/
def two (n : ℕ) : Str := [Nat.digitChar (n / 10), Nat.digitChar (n % 10)]

theorem zero2_two : ∀ n < 100, zero2 (n : ℕ) = two n := by decide +kernel

/-- **C195.** The date: `2026/01/02 03:04:5.678`; year in four characters (blanks before a shorter one), month, day, hour and minute in two digits,
and the seconds cut to milliseconds and not filled up with a zero. -/
theorem C195_date (s : State) (y mo d hh mi : ℕ) (hy : s.year = y) (hmo : s.month = mo) (hday : s.day = d) (hh' : s.hour = hh) (hmi : s.minute = mi)
    (y2 : y < 10000) (m2 : mo < 100) (d2 : d < 100) (h2 : hh < 100) (mi2 : mi < 100) :
    ∃ blanks, blanks + (dec y).length = 4 ∧
      dateText fmt3 s = List.replicate blanks ' ' ++ dec y ++ "/".toList ++ two mo ++ "/".toList ++ two d ++ " ".toList ++ two hh ++ ":".toList ++
        two mi ++ ":".toList ++ fmt3 ((⌊s.second * 1000⌋ : ℝ) / 1000) := by
  have hlen : (dec y).length ≤ 4 := Nat.toDigits_length 10 y 4 (by decide) (by omega)
  refine ⟨4 - (dec y).length, by omega, ?_⟩
  have e4 : blank4 (y : ℕ) = List.replicate (4 - (dec y).length) ' ' ++ dec y := rfl
  unfold dateText secFloor
  rw [hy, hmo, hday, hh', hmi, e4, zero2_two _ m2, zero2_two _ d2, zero2_two _ h2, zero2_two _ mi2]

theorem decInt_length (z : ℤ) (h1 : -2147483648 ≤ z) (h2 : z < 2147483648) : (decInt z).length ≤ 11 := by
  cases z with
  | ofNat n =>
    have : (Nat.toDigits 10 n).length ≤ 10 := Nat.toDigits_length 10 n 10 (by decide) (by
      have h2' : (n : ℤ) < 2147483648 := h2
      omega)
    exact this.trans (by decide)
  | negSucc n =>
    have : (Nat.toDigits 10 (n + 1)).length ≤ 10 := Nat.toDigits_length 10 (n + 1) 10 (by decide) (by omega)
    show ('-' :: Nat.toDigits 10 (n + 1)).length ≤ 11
    rw [List.length_cons]; omega

/-- **C195.** Whatever the date, as long as its numbers are 32-bit integers and the seconds take 38 characters at most, it fits the buffer of 100
characters: the hypothesis on the date in the other theorems is met. -/
theorem C195_fits (s : State) (h : ∀ z ∈ [s.year, s.month, s.day, s.hour, s.minute], -2147483648 ≤ z ∧ z < 2147483648)
    (h3 : (fmt3 (secFloor s.second)).length ≤ 38) : (dateText fmt3 s).length ≤ 98 := by
  have hl : ∀ z ∈ [s.year, s.month, s.day, s.hour, s.minute], (blank4 z).length ≤ 11 ∧ (zero2 z).length ≤ 11 := by
    intro z hz
    have := decInt_length z (h z hz).1 (h z hz).2
    unfold blank4 zero2
    simp only [List.length_append, List.length_replicate]
    omega
  have a := (hl s.year (by simp)).1
  have b := (hl s.month (by simp)).2
  have c := (hl s.day (by simp)).2
  have d := (hl s.hour (by simp)).2
  have e := (hl s.minute (by simp)).2
  unfold dateText
  simp only [List.length_append]
  have : "/".toList.length = 1 ∧ " ".toList.length = 1 ∧ ":".toList.length = 1 := by decide
  omega

/-! ### A simulation with two bodies and a thermal node -/

def exConfig : Config := ⟨["sun".toList, "moon".toList], "EARTH".toList, [⟨0, "BUS".toList, false⟩, ⟨1, "SPACE".toList, true⟩], true, fun _ => true⟩

noncomputable def exState (k : ℕ) : State where
  elapsed := k
  year := 2026
  month := 1
  day := 2
  hour := 3
  minute := 4
  second := 5 + k
  bodyPosition := fun i => i
  bodyVelocity := fun i => i
  gnssPosition := fun i j => i + j.val
  gnssClock := fun i => i
  angularVelocity := fun i => i.val
  quaternion := fun i => i.val
  torque := fun i => i.val
  angularMomentum := 1
  kineticEnergy := 2
  eulerCantilever := fun i => i.val
  angularVelocityCantilever := fun i => i.val
  positionI := fun i => k + i.val
  positionEcef := fun i => i.val
  velocityI := fun i => i.val
  velocityB := fun i => i.val
  accelerationI := fun i => i.val
  latitude := 1
  longitude := 2
  altitude := 3
  thermal := fun i j => i + j.val
  magneticFieldI := fun i => i.val
  magneticFieldB := fun i => i.val
  pressure := 4
  shadow := 1
  albedoFactor := 1
  albedoPower := 2
  infraredHot := 3
  infraredCold := 4
  infraredPower := 5
  airDensity := 6
  localPosition := fun i => i
  localVelocity := fun i => i
  gravityGradientTorque := fun i => i.val
  radiationTorque := fun i => i.val
  radiationForce := fun i => i.val
  thirdBodyAcceleration := fun i => i.val
  lunarAcceleration := fun i => i.val
  airDragTorque := fun i => i.val
  airDragForce := fun i => i.val
  magneticMoment := fun i => i.val
  magneticTorque := fun i => i.val
  geopotentialAcceleration := fun i => i.val

/-- A way of printing: the floor of the absolute value. -/
noncomputable def exFmt (_ : ℕ) (x : ℝ) : Str := dec ⌊|x|⌋₊
noncomputable def exFmt3 (_ : ℝ) : Str := "5.000".toList

theorem exSound : Sound exFmt exFmt3 exConfig :=
  ⟨fun _ _ => dec_clean _, fun _ => cl "5.000", by unfold Clean; decide +kernel, by unfold Clean; decide +kernel⟩

theorem exDistinct : Distinct exConfig := ⟨by decide +kernel, by decide +kernel, by decide +kernel⟩

theorem exDate (k : ℕ) : dateText exFmt3 (exState k) = "2026/01/02 03:04:5.000".toList := by
  show blank4 2026 ++ "/".toList ++ zero2 1 ++ "/".toList ++ zero2 2 ++ " ".toList ++ zero2 3 ++ ":".toList ++ zero2 4 ++ ":".toList ++ "5.000".toList = _
  decide +kernel

def exOther : Source := ⟨true, ["spacecraft_position_i_x[m]".toList], fun _ => ["no".toList]⟩

theorem exOther_ok : ∀ x ∈ [exOther], x.Ok := by
  intro x hx
  rw [List.mem_singleton.1 hx]
  refine ⟨?_, fun k => ⟨rfl, ?_⟩⟩
  · show ∀ f ∈ ["spacecraft_position_i_x[m]".toList], Clean f
    unfold Clean; decide +kernel
  · show ∀ f ∈ ["no".toList], Clean f
    unfold Clean; decide +kernel

/-- In the seventh line of values the position in x is 6, although another part uses the name again. -/
example : byName (runTable exFmt exFmt3 exConfig exState [exOther] ⟨true, [], []⟩ 10) "spacecraft_position_i_x[m]".toList 6 = some "6".toList := by
  refine C195_by_name exConfig exSound exDistinct exState (fun k => by rw [exDate]; decide) [exOther] exOther_ok _ rfl rfl 10 6 (by omega) .orbit trivial rfl _ _ ?_
  have e : exFmt 16 ((exState 6).positionI 0) = "6".toList := by
    have : (exState 6).positionI 0 = 6 := by simp [exState]
    rw [this]; unfold exFmt
    rw [show ⌊|(6 : ℝ)|⌋₊ = 6 by norm_num]
    decide +kernel
  rw [← e]
  exact List.mem_cons_self ..

/-- The date column. -/
example : byName (runTable exFmt exFmt3 exConfig exState [exOther] ⟨true, [], []⟩ 10) "time[UTC]".toList 6 = some "2026/01/02 03:04:5.000".toList := by
  refine C195_by_name exConfig exSound exDistinct exState (fun k => by rw [exDate]; decide) [exOther] exOther_ok _ rfl rfl 10 6 (by omega) .time trivial rfl _ _ ?_
  rw [← exDate 6]
  exact List.mem_cons_of_mem _ (List.mem_cons_self ..)

/-- A thermal node and a body. -/
example : byName (runTable exFmt exFmt3 exConfig exState [] ⟨true, [], []⟩ 10) "temp_0 (BUS)[deg]".toList 2 = some (exFmt 6 0) ∧
    byName (runTable exFmt exFmt3 exConfig exState [] ⟨true, [], []⟩ 10) "moon_position_from_spacecraft_b_x[m]".toList 2 = some (exFmt 6 3) := by
  constructor
  · refine C195_by_name exConfig exSound exDistinct exState (fun k => by rw [exDate]; decide) [] (by simp) _ rfl rfl 10 2 (by omega) .temperature trivial rfl _ _ ?_
    have e : exFmt 6 0 = exFmt 6 ((exState 2).thermal 0 0) := by simp [exState]
    rw [e, show "temp_0 (BUS)[deg]".toList = "temp_".toList ++ dec 0 ++ (" (".toList ++ "BUS".toList ++ (")[" ++ "deg" ++ "]").toList) by decide +kernel]
    exact List.mem_cons_self ..
  · refine C195_by_name exConfig exSound exDistinct exState (fun k => by rw [exDate]; decide) [] (by simp) _ rfl rfl 10 2 (by omega) .localCelestial trivial rfl _ _ ?_
    have e : exFmt 6 3 = exFmt 6 ((exState 2).localPosition (1 * 3 + 0)) := by simp [exState]
    rw [e, show "moon_position_from_spacecraft_b_x[m]".toList = "moon".toList ++ ("_position" ++ "_from_spacecraft" ++ "_" ++ "b" ++ "_x[m]").toList by decide +kernel]
    exact List.mem_flatMap.2 ⟨("moon".toList, 1), by decide +kernel, List.mem_cons_self ..⟩

/-- The first line has no repeated name. -/
example : ∃ names, (runTable exFmt exFmt3 exConfig exState [exOther] ⟨true, [], []⟩ 1)[0]? = some (names ++ headerCells [exOther]) ∧ names.Nodup :=
  let ⟨ns, a, b, _⟩ := C195_names exConfig exSound exDistinct exState (fun k => by rw [exDate]; decide) [exOther] exOther_ok ⟨true, [], []⟩ rfl rfl 1 0 (by omega)
  ⟨ns, a, b⟩

/-- With the later states of a second spacecraft, the position of the first is found. -/
example : ∃ text, ("spacecraft_altitude[m]".toList, text) ∈ columns exFmt exFmt3 exConfig (exState 1) .orbit ∧
    byName (runTable exFmt exFmt3 exConfig exState ((spacecraftParts exConfig.center).map (source exFmt exFmt3 exConfig (fun k => exState (k + 7)))) ⟨true, [], []⟩ 3)
      "spacecraft_altitude[m]".toList 1 = some text :=
  C195_second exConfig exConfig exSound exSound exDistinct exState (fun k => exState (k + 7)) (fun k => by rw [exDate]; decide)
    (fun k => by rw [exDate]; decide) rfl rfl rfl ⟨true, [], []⟩ rfl rfl 3 1 (by omega) .orbit trivial rfl _ (exFmt 6 3)
    (List.mem_append_right _ (List.mem_cons_of_mem _ (List.mem_cons_of_mem _ (List.mem_cons_self ..))))

example : (dateText exFmt3 (exState 3)).length ≤ 98 :=
  C195_fits (exState 3) (by show ∀ z ∈ [(2026 : ℤ), 1, 2, 3, 4], _; decide) (by show "5.000".toList.length ≤ 38; decide)

example : ∃ blanks, blanks + (dec 2026).length = 4 ∧ dateText exFmt3 (exState 0) = List.replicate blanks ' ' ++ dec 2026 ++ "/".toList ++ two 1 ++
    "/".toList ++ two 2 ++ " ".toList ++ two 3 ++ ":".toList ++ two 4 ++ ":".toList ++ exFmt3 ((⌊(exState 0).second * 1000⌋ : ℝ) / 1000) :=
  C195_date (exState 0) 2026 1 2 3 4 rfl rfl rfl rfl rfl (by decide) (by decide) (by decide) (by decide) (by decide)

end S2E.LogColumns
