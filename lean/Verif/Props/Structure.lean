import Verif.Spec.Structure
import Verif.Props.SurfaceForce
/-!
# C183: the structure of a spacecraft
-/
namespace S2E.Struct
open StructSpec Dist

theorem lastOr_cons {α : Type} (d x : α) (l : List α) : lastOr d (x :: l) = lastOr x l := by
  unfold lastOr
  rcases l with _ | ⟨y, l⟩
  · rfl
  · rw [List.getLast?_cons_cons]
    have : (y :: l).getLast? = some ((y :: l).getLast (by simp)) := List.getLast?_eq_some_getLast (by simp)
    rw [this]; rfl

theorem normalized_unit (v : Vec 3) : calcNormalizedVector v = unit v := by
  have h : ∑ i, v i ^ 2 = v 0 ^ 2 + v 1 ^ 2 + v 2 ^ 2 := Fin.sum_univ_three _
  unfold calcNormalizedVector unit calcNorm
  rw [h]
  split
  · next hz =>
    rw [hz]
    have h0 : v 0 ^ 2 + v 1 ^ 2 + v 2 ^ 2 ≤ 0 := Real.sqrt_eq_zero'.1 hz
    have a0 : v 0 = 0 := by nlinarith [sq_nonneg (v 0), sq_nonneg (v 1), sq_nonneg (v 2)]
    have a1 : v 1 = 0 := by nlinarith [sq_nonneg (v 0), sq_nonneg (v 1), sq_nonneg (v 2)]
    have a2 : v 2 = 0 := by nlinarith [sq_nonneg (v 0), sq_nonneg (v 1), sq_nonneg (v 2)]
    funext i
    fin_cases i <;> simp [a0, a1, a2]
  · funext i
    simp only [vdiv, scale]
    ring

theorem setSurface_spec (f : Surface) (op : SurfaceOp) (ops : List SurfaceOp) : surface f (op :: ops) = surface (setSurface f op) ops := by
  classical
  cases op with
  | position v => simp [surface, setSurface, positions, normals, areas, reflectivities, specularities, airSpecularities, lastOr_cons]
  | normal v => simp [surface, setSurface, positions, normals, areas, reflectivities, specularities, airSpecularities, lastOr_cons, normalized_unit]
  | area x =>
    by_cases h : 0 < x <;>
      simp [surface, setSurface, positions, normals, areas, reflectivities, specularities, airSpecularities, lastOr_cons, positive, h]
  | reflectivity x =>
    by_cases h : 0 ≤ x ∧ x ≤ 1 <;>
      simp [surface, setSurface, positions, normals, areas, reflectivities, specularities, airSpecularities, lastOr_cons, fractions, h]
  | specularity x =>
    by_cases h : 0 ≤ x ∧ x ≤ 1 <;>
      simp [surface, setSurface, positions, normals, areas, reflectivities, specularities, airSpecularities, lastOr_cons, fractions, h]
  | airSpecularity x =>
    by_cases h : 0 ≤ x ∧ x ≤ 1 <;>
      simp [surface, setSurface, positions, normals, areas, reflectivities, specularities, airSpecularities, lastOr_cons, fractions, h]

/-- What one setter leaves alone. -/
theorem apply_other {s t : Structure} {op : Op} (h : apply s op = .ok t) :
    t.surfaces.length = s.surfaces.length ∧ (t.rmm.walkStd, t.rmm.walkLimit, t.rmm.noiseStd) = (s.rmm.walkStd, s.rmm.walkLimit, s.rmm.noiseStd) := by
  cases op with
  | surface i op =>
    unfold apply at h
    dsimp only at h
    split at h
    · cases h
    · cases h; simp
  | setMass x => cases h; unfold setMass; split <;> exact ⟨rfl, rfl⟩
  | addMass x => cases h; unfold setMass; split <;> exact ⟨rfl, rfl⟩
  | setCog | setInertia | setRmm | addRmm => cases h; exact ⟨rfl, rfl⟩

/-- Every history is executed exactly when every surface it names exists. -/
theorem C183_defined (s : Structure) (ops : List Op) :
    (∃ t, run s ops = .ok t) ↔ ∀ i op, Op.surface i op ∈ ops → i < s.surfaces.length := by
  induction ops generalizing s with
  | nil => exact ⟨fun _ i op h => absurd h (by simp), fun _ => ⟨s, rfl⟩⟩
  | cons op ops ih =>
    have step : ∀ t, apply s op = .ok t → ((∃ r, run s (op :: ops) = .ok r) ↔ ∀ i o, Op.surface i o ∈ ops → i < s.surfaces.length) := by
      intro t ht
      rw [← (apply_other ht).1, ← ih t]
      simp only [run, ht, Res.bind]
    cases op with
    | surface i o =>
      by_cases hi : i < s.surfaces.length
      · have ht : apply s (.surface i o) = .ok { s with surfaces := s.surfaces.set i (setSurface s.surfaces[i] o) } := by
          simp only [apply, List.getElem?_eq_getElem hi]
        rw [step _ ht]
        constructor
        · intro h j p hm
          rcases List.mem_cons.1 hm with hm | hm
          · cases hm; exact hi
          · exact h j p hm
        · exact fun h j p hm => h j p (List.mem_cons_of_mem _ hm)
      · refine ⟨fun ⟨t, ht⟩ => ?_, fun h => absurd (h i o (by simp)) hi⟩
        have : s.surfaces[i]? = none := by simpa using hi
        simp [run, apply, this, Res.bind] at ht
    | setMass x => rw [step _ rfl]; simp
    | addMass x => rw [step _ rfl]; simp
    | setCog v => rw [step _ rfl]; simp
    | setInertia m => rw [step _ rfl]; simp
    | setRmm v => rw [step _ rfl]; simp
    | addRmm v => rw [step _ rfl]; simp

/-- Every quantity after every history. -/
theorem C183_history (s t : Structure) (ops : List Op) (h : run s ops = .ok t) :
    t.cog = lastOr s.cog (cogs ops) ∧ t.inertia = lastOr s.inertia (inertias ops) ∧ Mass s.mass ops t.mass ∧ t.rmm.constant = moment s.rmm.constant ops ∧
    (t.rmm.walkStd = s.rmm.walkStd ∧ t.rmm.walkLimit = s.rmm.walkLimit ∧ t.rmm.noiseStd = s.rmm.noiseStd) ∧
    t.surfaces = s.surfaces.mapIdx fun i f => surface f (onSurface i ops) := by
  induction ops generalizing s with
  | nil =>
    cases h
    refine ⟨rfl, rfl, .nil _, rfl, ⟨rfl, rfl, rfl⟩, ?_⟩
    have : (fun (i : ℕ) (f : Surface) => surface f (onSurface i [])) = fun _ f => f := by funext i f; rfl
    rw [this]
    exact (List.ext_getElem (by simp) (by simp))
  | cons op ops ih =>
    cases op with
    | surface j o =>
      simp only [run, apply] at h
      rcases hj : s.surfaces[j]? with _ | f
      · rw [hj] at h; cases h
      · rw [hj] at h
        obtain ⟨h1, h2, h3, h4, h5, h6⟩ := ih _ h
        refine ⟨h1, h2, .other (by simp) (by simp) h3, h4, h5, ?_⟩
        rw [h6]
        apply List.ext_getElem (by simp)
        intro n k1 k2
        simp only [List.getElem_mapIdx, List.getElem_set]
        by_cases hn : j = n
        · subst hn
          have hf : f = s.surfaces[j]'(by simpa using k2) := by
            rw [List.getElem?_eq_getElem (by simpa using k2)] at hj
            exact (Option.some.inj hj).symm
          rw [if_pos rfl, hf]
          simp [onSurface, setSurface_spec]
        · rw [if_neg hn]
          simp [onSurface, hn]
    | setMass x =>
      obtain ⟨h1, h2, h3, h4, h5, h6⟩ := ih _ h
      unfold setMass at h1 h2 h3 h4 h5 h6
      by_cases hx : x > 0
      · rw [if_pos hx] at h1 h2 h3 h4 h5 h6
        exact ⟨h1, h2, .set hx h3, h4, h5, h6⟩
      · rw [if_neg hx] at h1 h2 h3 h4 h5 h6
        exact ⟨h1, h2, .setRefused (not_lt.1 hx) h3, h4, h5, h6⟩
    | addMass x =>
      obtain ⟨h1, h2, h3, h4, h5, h6⟩ := ih _ h
      unfold setMass at h1 h2 h3 h4 h5 h6
      by_cases hx : s.mass + x > 0
      · rw [if_pos hx] at h1 h2 h3 h4 h5 h6
        exact ⟨h1, h2, .add hx h3, h4, h5, h6⟩
      · rw [if_neg hx] at h1 h2 h3 h4 h5 h6
        exact ⟨h1, h2, .addRefused (not_lt.1 hx) h3, h4, h5, h6⟩
    | setCog v =>
      obtain ⟨h1, h2, h3, h4, h5, h6⟩ := ih _ h
      exact ⟨by rw [h1]; simp [cogs, lastOr_cons], h2, .other (by simp) (by simp) h3, h4, h5, h6⟩
    | setInertia m =>
      obtain ⟨h1, h2, h3, h4, h5, h6⟩ := ih _ h
      exact ⟨h1, by rw [h2]; simp [inertias, lastOr_cons], .other (by simp) (by simp) h3, h4, h5, h6⟩
    | setRmm v =>
      obtain ⟨h1, h2, h3, h4, h5, h6⟩ := ih _ h
      exact ⟨h1, h2, .other (by simp) (by simp) h3, h4, h5, h6⟩
    | addRmm v =>
      obtain ⟨h1, h2, h3, h4, h5, h6⟩ := ih _ h
      exact ⟨h1, h2, .other (by simp) (by simp) h3, h4, h5, h6⟩

/-- A history that sets no zero normal keeps a physical structure physical. -/
theorem C183_physical (s t : Structure) (ops : List Op) (h : run s ops = .ok t) (hp : Physical s) (hn : ∀ i v, Op.surface i (.normal v) ∈ ops → v ≠ 0) : Physical t := by
  induction ops generalizing s with
  | nil => cases h; exact hp
  | cons op ops ih =>
    have hn' : ∀ i v, Op.surface i (.normal v) ∈ ops → v ≠ 0 := fun i v hm => hn i v (List.mem_cons_of_mem _ hm)
    cases op with
    | setMass x => exact ih _ h (by unfold setMass; split; exacts [⟨by assumption, hp.2⟩, hp]) hn'
    | addMass x => exact ih _ h (by unfold setMass; split; exacts [⟨by assumption, hp.2⟩, hp]) hn'
    | setCog v => exact ih _ h hp hn'
    | setInertia v => exact ih _ h hp hn'
    | setRmm v => exact ih _ h hp hn'
    | addRmm v => exact ih _ h hp hn'
    | surface j o =>
      simp only [run, apply] at h
      rcases hj : s.surfaces[j]? with _ | f
      · rw [hj] at h; cases h
      · rw [hj] at h
        refine ih _ h ⟨hp.1, ?_⟩ hn'
        intro g hg
        rcases List.mem_or_eq_of_mem_set hg with hg | rfl
        · exact hp.2 g hg
        · have hf := hp.2 f (List.mem_of_getElem? hj)
          cases o with
          | position v => exact hf
          | normal v =>
            refine ⟨hf.1, hf.2.1, hf.2.2.1, hf.2.2.2.1, ?_⟩
            have hv := hn j v (by simp)
            have := (normalized_len hv).1
            unfold TwoBody.len at this
            exact (Real.sqrt_eq_one.1 this)
          | area x =>
            unfold setSurface
            dsimp only
            split
            · next hx => exact ⟨le_of_lt hx, hf.2⟩
            · exact hf
          | reflectivity x =>
            unfold setSurface
            dsimp only
            split
            · next hx => exact ⟨hf.1, hx, hf.2.2⟩
            · exact hf
          | specularity x =>
            unfold setSurface
            dsimp only
            split
            · next hx => exact ⟨hf.1, hf.2.1, hx, hf.2.2.2⟩
            · exact hf
          | airSpecularity x =>
            unfold setSurface
            dsimp only
            split
            · next hx => exact ⟨hf.1, hf.2.1, hf.2.2.1, hx, hf.2.2.2.2⟩
            · exact hf

/-! ## Settings -/

/-- The file has an entry that is read as the number `x`. -/
def HasNumber (rd : InitOrbit.Reader) (file : InitOrbit.File) (section_ : String) (key : Log.Str) (x : ℝ) : Prop :=
  ∃ text, file section_.toList key = some text ∧ rd.getReal text = x

/-- A settings file that describes a structure. -/
def Describes (rd : InitOrbit.Reader) (file : InitOrbit.File) (s : Structure) : Prop :=
  (∀ i : Fin 3, HasNumber rd file "KINEMATIC_PARAMETERS" ("center_of_gravity_b_m(".toList ++ Log.dec i ++ ")".toList) (s.cog i)) ∧
  HasNumber rd file "KINEMATIC_PARAMETERS" "mass_kg".toList s.mass ∧
  (∀ i j : Fin 3, HasNumber rd file "KINEMATIC_PARAMETERS" ("inertia_tensor_kgm2(".toList ++ Log.dec (3 * i + j) ++ ")".toList) (s.inertia i j)) ∧
  (∃ text, file "SURFACES".toList "number_of_surfaces".toList = some text ∧ rd.getInteger text = s.surfaces.length) ∧
  (∀ k (hk : k < s.surfaces.length),
    (∀ i : Fin 3, HasNumber rd file "SURFACES" ("position_".toList ++ Log.dec k ++ "_b_m(".toList ++ Log.dec i ++ ")".toList) (s.surfaces[k].position i)) ∧
    (∀ i : Fin 3, HasNumber rd file "SURFACES" ("normal_vector_".toList ++ Log.dec k ++ "_b(".toList ++ Log.dec i ++ ")".toList) (s.surfaces[k].normal i)) ∧
    HasNumber rd file "SURFACES" ("area_".toList ++ Log.dec k ++ "_m2".toList) s.surfaces[k].area ∧
    HasNumber rd file "SURFACES" ("reflectivity_".toList ++ Log.dec k) s.surfaces[k].reflectivity ∧
    HasNumber rd file "SURFACES" ("specularity_".toList ++ Log.dec k) s.surfaces[k].specularity ∧
    HasNumber rd file "SURFACES" ("air_specularity_".toList ++ Log.dec k) s.surfaces[k].airSpecularity) ∧
  (∀ i : Fin 3, HasNumber rd file "RESIDUAL_MAGNETIC_MOMENT" ("rmm_constant_b_Am2(".toList ++ Log.dec i ++ ")".toList) (s.rmm.constant i)) ∧
  HasNumber rd file "RESIDUAL_MAGNETIC_MOMENT" "rmm_random_walk_speed_Am2".toList s.rmm.walkStd ∧
  HasNumber rd file "RESIDUAL_MAGNETIC_MOMENT" "rmm_random_walk_limit_Am2".toList s.rmm.walkLimit ∧
  HasNumber rd file "RESIDUAL_MAGNETIC_MOMENT" "rmm_white_noise_standard_deviation_Am2".toList s.rmm.noiseStd

theorem accepted_of_physical {s : Structure} (h : Physical s) (f : Surface) (hf : f ∈ s.surfaces) : Accepted f ∧ ¬ TwoBody.len f.normal > 1 + 1 / 10 ^ 6 := by
  obtain ⟨h1, ⟨h2, h3⟩, ⟨h4, h5⟩, ⟨h6, h7⟩, h8⟩ := h.2 f hf
  refine ⟨⟨by linarith, ⟨by linarith, by linarith⟩, ⟨by linarith, by linarith⟩, by linarith, by linarith⟩, ?_⟩
  unfold TwoBody.len
  rw [h8, Real.sqrt_one]
  norm_num

theorem initSurfaces_physical {s : Structure} (h : Physical s) : initSurfaces s.surfaces = s.surfaces := by
  classical
  have hall : ∀ l : List Surface, (∀ f ∈ l, Accepted f) → l.takeWhile (fun f => decide (Accepted f)) = l := by
    intro l
    induction l with
    | nil => intro _; rfl
    | cons f l ih => intro hl; rw [List.takeWhile_cons, if_pos (by simpa using hl f (by simp)), ih fun g hg => hl g (List.mem_cons_of_mem _ hg)]
  rw [C104_surfaces, hall _ fun f hf => (accepted_of_physical h f hf).1]
  conv_rhs => rw [← List.map_id s.surfaces]
  refine List.map_congr_left fun f hf => ?_
  rw [if_neg (accepted_of_physical h f hf).2]
  rfl

/-- A file that describes a physical structure produces this structure. -/
theorem C183_settings (rd : InitOrbit.Reader)
    (files : Log.Str → InitOrbit.File) (spacecraft path : Log.Str)
    (hpath : Ini.readString rd.paths (files spacecraft "SETTING_FILES".toList) "structure_file".toList = path)
    (s : Structure) (hs : Physical s) (hd : Describes rd (files path) s) : new rd files spacecraft = s := by
  obtain ⟨h1, h2, h3, h4, h5, h6, h7, h8, h9⟩ := hd
  have hval : ∀ (sec : String) key x, HasNumber rd (files path) sec key x → Ini.readDouble rd.getReal (files path sec.toList) key = x := by
    intro sec key x h
    obtain ⟨text, h, ht⟩ := h
    unfold Ini.readDouble; rw [h]; exact ht
  have hcog : rd.vec3 (files path "KINEMATIC_PARAMETERS".toList) "center_of_gravity_b_m".toList = s.cog := by
    funext i
    exact hval _ _ _ (h1 i)
  have hin : (Matrix.of fun (i j : Fin 3) => Ini.readDouble rd.getReal (files path "KINEMATIC_PARAMETERS".toList)
      (Ini.indexedKey "inertia_tensor_kgm2".toList (i.val * 3 + j.val))) = s.inertia := by
    funext i j
    refine hval _ _ _ ?_
    rw [Nat.mul_comm]
    exact h3 i j
  have hnum : rd.int (files path "SURFACES".toList) "number_of_surfaces".toList = s.surfaces.length := by
    unfold InitOrbit.Reader.int
    obtain ⟨text, h4, ht⟩ := h4
    rw [h4]; exact ht
  have hsurf : initSurfacesOf rd (files path) = s.surfaces := by
    unfold initSurfacesOf
    dsimp only
    rw [hnum, Int.toNat_natCast]
    have : (List.range s.surfaces.length).map (readSurface rd (files path "SURFACES".toList)) = s.surfaces := by
      apply List.ext_getElem (by simp)
      intro k k1 k2
      rw [List.getElem_map, List.getElem_range]
      obtain ⟨a1, a2, a3, a4, a5, a6⟩ := h5 k k2
      unfold readSurface
      dsimp only
      rw [hval _ _ _ (by simpa using a3), hval _ _ _ (by simpa using a4), hval _ _ _ (by simpa using a5), hval _ _ _ (by simpa using a6)]
      have p1 : rd.vec3 (files path "SURFACES".toList) ("position".toList ++ ("_".toList ++ Log.dec k) ++ "_b_m".toList) = s.surfaces[k].position := by
        funext i
        exact hval _ _ _ (by simpa [Ini.indexedKey] using a1 i)
      have p2 : rd.vec3 (files path "SURFACES".toList) ("normal_vector".toList ++ ("_".toList ++ Log.dec k) ++ "_b".toList) = s.surfaces[k].normal := by
        funext i
        exact hval _ _ _ (by simpa [Ini.indexedKey] using a2 i)
      rw [p1, p2]
    rw [this]
    exact initSurfaces_physical hs
  have hrmm : initRmm rd (files path) = s.rmm := by
    unfold initRmm
    dsimp only
    rw [hval _ _ _ h7, hval _ _ _ h8, hval _ _ _ h9]
    have : rd.vec3 (files path "RESIDUAL_MAGNETIC_MOMENT".toList) "rmm_constant_b_Am2".toList = s.rmm.constant := by
      funext i
      exact hval _ _ _ (h6 i)
    rw [this]
  unfold new
  rw [hpath]
  dsimp only
  unfold initKinematics
  dsimp only
  rw [hcog, hval _ _ _ h2, hin, hsurf, hrmm]

/-! ## ExampleChangeStructure -/

/-- The structure after the change. -/
noncomputable def changed (s : Structure) : Structure :=
  ⟨![1 / 100, -(1 / 100), 1 / 50], 100, (1 / 5 : ℝ) • 1, (match s.surfaces with
    | [] => []
    | f :: fs => { f with area := 1 / 2 } :: fs), { s.rmm with constant := ![1 / 10, -(1 / 10), 1 / 5] }⟩

theorem run_changes (s : Structure) (hs : s.surfaces ≠ []) : run s changes = .ok (changed s) := by
  obtain ⟨c, m, i, l, r⟩ := s
  rcases l with _ | ⟨f, fs⟩
  · exact absurd rfl hs
  simp only [changes, run, apply, setMass, Res.bind, changed, setSurface, List.getElem?_cons_zero, List.set_cons_zero]
  rw [if_pos (by norm_num)]
  dsimp only
  simp only [List.getElem?_cons_zero, List.set_cons_zero]
  rw [if_pos (by norm_num)]
  congr 2
  · norm_num
  · funext i j
    fin_cases i <;> fin_cases j <;> norm_num
  · norm_num
  · norm_num

theorem changed_changed (s : Structure) : changed (changed s) = changed s := by
  obtain ⟨c, m, i, l, r⟩ := s
  rcases l with _ | ⟨f, fs⟩ <;> rfl

theorem ticks_changed (n c : ℕ) (s : Structure) (hs : s.surfaces ≠ []) : ticks n c (changed s) = .ok (changed s) := by
  have hne : (changed s).surfaces ≠ [] := by
    obtain ⟨c, m, i, l, r⟩ := s
    rcases l with _ | ⟨f, fs⟩
    · exact absurd rfl hs
    · simp [changed]
  induction n generalizing c with
  | zero => rfl
  | succ n ih =>
    unfold ticks mainRoutine
    split
    · rw [run_changes _ hne, changed_changed]; exact ih _
    · exact ih _

theorem ticks_from (n c : ℕ) (hc : c ≤ 1001) (s : Structure) (hs : s.surfaces ≠ []) :
    ticks n c s = .ok (if n + c ≤ 1001 then s else changed s) := by
  induction n generalizing c with
  | zero => unfold ticks; rw [if_pos (by omega)]
  | succ n ih =>
    have hi : toInt c = c := by
      unfold toInt
      rw [Nat.mod_eq_of_lt (by omega), if_pos (by omega)]
    unfold ticks mainRoutine
    rw [hi]
    by_cases h : c = 1001
    · subst h
      rw [if_pos (by norm_num), run_changes s hs, if_neg (by omega)]
      exact ticks_changed _ _ s hs
    · rw [if_neg (by omega), Nat.mod_eq_of_lt (by omega)]
      show ticks n (c + 1) s = _
      rw [ih (c + 1) (by omega)]
      congr 2
      simp only [eq_iff_iff]
      omega

/-- The example component leaves the structure alone in the first 1001 ticks and then gives it its second form for good, also when the 32-bit counter wraps. -/
theorem C183_change (s : Structure) (hs : s.surfaces ≠ []) (n : ℕ) : ticks n 0 s = .ok (if n ≤ 1001 then s else changed s) := by
  rw [ticks_from n 0 (by omega) s hs, Nat.add_zero]

/-- Without surfaces the change is undefined. -/
theorem C183_change_without_surfaces (s : Structure) (hs : s.surfaces = []) (n : ℕ) : ticks n 0 s = if n ≤ 1001 then .ok s else .ub := by
  have hub : run s changes = .ub := by
    simp only [changes, run, apply, Res.bind, setMass]
    rw [if_pos (by norm_num)]
    simp [hs]
  have key : ∀ n c : ℕ, c ≤ 1001 → ticks n c s = if n + c ≤ 1001 then .ok s else .ub := by
    intro n
    induction n with
    | zero => intro c hc; unfold ticks; rw [if_pos (by omega)]
    | succ n ih =>
      intro c hc
      have hi : toInt c = c := by
        unfold toInt
        rw [Nat.mod_eq_of_lt (by omega), if_pos (by omega)]
      unfold ticks mainRoutine
      rw [hi]
      by_cases h : c = 1001
      · subst h
        rw [if_pos (by norm_num), hub, if_neg (by omega)]
        rfl
      · rw [if_neg (by omega), Nat.mod_eq_of_lt (by omega)]
        show ticks n (c + 1) s = _
        rw [ih (c + 1) (by omega)]
        congr 1
        simp only [eq_iff_iff]
        omega
  exact key n 0 (by omega)

/-! ## Examples -/

theorem mass_nil {m r : ℝ} (h : Mass m [] r) : r = m := by cases h; rfl


/-- A cube's face. -/
noncomputable def exFace : Surface := ⟨![1, 0, 0], ![1, 0, 0], 4, 1 / 4, 1 / 2, 1⟩
noncomputable def exStructure : Structure := ⟨![0, 0, 0], 50, 1, [exFace], ⟨![0, 0, 1], 1, 2, 3⟩⟩

theorem exStructure_physical : Physical exStructure := by
  refine ⟨by norm_num [exStructure], ?_⟩
  intro f hf
  obtain rfl : f = exFace := by simpa [exStructure] using hf
  have h2 : exFace.normal 2 = 0 := rfl
  rw [h2]
  norm_num [exFace]

/-- A history: mass reduced by fuel, a refused mass, two areas of which the second is refused, a normal. -/
example : ∃ t, run exStructure [.addMass (-10), .setMass (-5), .surface 0 (.area 2), .surface 0 (.area (-1)), .surface 0 (.normal ![0, 3, 4])] = .ok t ∧
    t.mass = 40 ∧ t.surfaces.map (·.area) = [2] ∧ Physical t := by
  obtain ⟨t, ht⟩ := (C183_defined exStructure
    [.addMass (-10), .setMass (-5), .surface 0 (.area 2), .surface 0 (.area (-1)), .surface 0 (.normal ![0, 3, 4])]).2 (by
      intro i op h
      simp at h
      rcases h with h | h | h <;> simp [h.1, exStructure])
  obtain ⟨-, -, h3, -, -, h6⟩ := C183_history _ _ _ ht
  refine ⟨t, ht, ?_, ?_, C183_physical _ _ _ ht exStructure_physical ?_⟩
  · have : t.mass = 50 + -10 := by
      cases h3 with
      | add _ h =>
        cases h with
        | set h0 _ => norm_num at h0
        | setRefused _ h =>
          cases h with
          | other _ _ h =>
            cases h with
            | other _ _ h =>
              cases h with
              | other _ _ h => exact mass_nil h
        | other h1 _ _ => exact absurd rfl (h1 _)
      | addRefused h0 _ => norm_num [exStructure] at h0
      | other _ h1 _ => exact absurd rfl (h1 _)
    rw [this]; norm_num
  · rw [h6]
    simp [exStructure, surface, onSurface, areas, positive, lastOr]
  · intro i v h
    simp at h
    rw [h.2]
    intro h0
    have := congrFun h0 1
    simp at this

/-- The numbers of the example file. -/
def exNumbers : List (String × ℚ) := [("0", 0), ("1", 1), ("2", 2), ("3", 3), ("4", 4), ("50", 50), ("0.25", 1 / 4), ("0.5", 1 / 2)]

noncomputable def exReader : InitOrbit.Reader :=
  ⟨⟨[], [], []⟩, fun t => (((exNumbers.lookup (String.ofList t)).getD 0 : ℚ) : ℝ), fun t => if t = "1".toList then 1 else 0, fun _ => []⟩

def exTable : List ((String × String) × String) :=
  [(("KINEMATIC_PARAMETERS", "center_of_gravity_b_m(0)"), "0"), (("KINEMATIC_PARAMETERS", "center_of_gravity_b_m(1)"), "0"),
   (("KINEMATIC_PARAMETERS", "center_of_gravity_b_m(2)"), "0"), (("KINEMATIC_PARAMETERS", "mass_kg"), "50"),
   (("KINEMATIC_PARAMETERS", "inertia_tensor_kgm2(0)"), "1"), (("KINEMATIC_PARAMETERS", "inertia_tensor_kgm2(1)"), "0"),
   (("KINEMATIC_PARAMETERS", "inertia_tensor_kgm2(2)"), "0"), (("KINEMATIC_PARAMETERS", "inertia_tensor_kgm2(3)"), "0"),
   (("KINEMATIC_PARAMETERS", "inertia_tensor_kgm2(4)"), "1"), (("KINEMATIC_PARAMETERS", "inertia_tensor_kgm2(5)"), "0"),
   (("KINEMATIC_PARAMETERS", "inertia_tensor_kgm2(6)"), "0"), (("KINEMATIC_PARAMETERS", "inertia_tensor_kgm2(7)"), "0"),
   (("KINEMATIC_PARAMETERS", "inertia_tensor_kgm2(8)"), "1"), (("SURFACES", "number_of_surfaces"), "1"),
   (("SURFACES", "position_0_b_m(0)"), "1"), (("SURFACES", "position_0_b_m(1)"), "0"), (("SURFACES", "position_0_b_m(2)"), "0"),
   (("SURFACES", "normal_vector_0_b(0)"), "1"), (("SURFACES", "normal_vector_0_b(1)"), "0"), (("SURFACES", "normal_vector_0_b(2)"), "0"),
   (("SURFACES", "area_0_m2"), "4"), (("SURFACES", "reflectivity_0"), "0.25"), (("SURFACES", "specularity_0"), "0.5"), (("SURFACES", "air_specularity_0"), "1"),
   (("RESIDUAL_MAGNETIC_MOMENT", "rmm_constant_b_Am2(0)"), "0"), (("RESIDUAL_MAGNETIC_MOMENT", "rmm_constant_b_Am2(1)"), "0"),
   (("RESIDUAL_MAGNETIC_MOMENT", "rmm_constant_b_Am2(2)"), "1"), (("RESIDUAL_MAGNETIC_MOMENT", "rmm_random_walk_speed_Am2"), "1"),
   (("RESIDUAL_MAGNETIC_MOMENT", "rmm_random_walk_limit_Am2"), "2"), (("RESIDUAL_MAGNETIC_MOMENT", "rmm_white_noise_standard_deviation_Am2"), "3"),
   (("SETTING_FILES", "structure_file"), "cube.ini")]

/-- One file for everything. -/
def exFile : InitOrbit.File := fun sec key => (exTable.lookup (String.ofList sec, String.ofList key)).map String.toList

theorem exHas {sec : String} {key : Log.Str} (text : String) {q : ℚ} {x : ℝ} (h1 : exFile sec.toList key = some text.toList) (h2 : exNumbers.lookup text = some q)
    (h3 : (q : ℝ) = x) : HasNumber exReader exFile sec key x := by
  refine ⟨text.toList, h1, ?_⟩
  simp [exReader, h2, h3]

theorem exDescribes : Describes exReader exFile exStructure := by
  have z : ∀ {sec : String} {key : Log.Str} {x : ℝ}, exFile sec.toList key = some "0".toList → x = 0 → HasNumber exReader exFile sec key x :=
    fun h hx => exHas "0" (q := 0) h (by decide +kernel) (by rw [hx]; simp)
  have o : ∀ {sec : String} {key : Log.Str} {x : ℝ}, exFile sec.toList key = some "1".toList → x = 1 → HasNumber exReader exFile sec key x :=
    fun h hx => exHas "1" (q := 1) h (by decide +kernel) (by rw [hx]; simp)
  refine ⟨?_, exHas "50" (q := 50) (by decide +kernel) (by decide +kernel) (by norm_num [exStructure]), ?_, ⟨"1".toList, by decide +kernel, by simp [exReader, exStructure]⟩, ?_, ?_,
    exHas "1" (q := 1) (by decide +kernel) (by decide +kernel) (by norm_num [exStructure]),
    exHas "2" (q := 2) (by decide +kernel) (by decide +kernel) (by norm_num [exStructure]),
    exHas "3" (q := 3) (by decide +kernel) (by decide +kernel) (by norm_num [exStructure])⟩
  · intro i
    fin_cases i
    · exact z (by decide +kernel) rfl
    · exact z (by decide +kernel) rfl
    · exact z (by decide +kernel) rfl
  · intro i j
    have hI : exStructure.inertia = 1 := rfl
    rw [hI]
    fin_cases i <;> fin_cases j
    · exact o (by decide +kernel) (by simp)
    · exact z (by decide +kernel) (by simp)
    · exact z (by decide +kernel) (by simp)
    · exact z (by decide +kernel) (by simp)
    · exact o (by decide +kernel) (by simp)
    · exact z (by decide +kernel) (by simp)
    · exact z (by decide +kernel) (by simp)
    · exact z (by decide +kernel) (by simp)
    · exact o (by decide +kernel) (by simp)
  · intro k hk
    obtain rfl : k = 0 := by simpa [exStructure] using hk
    have hf : exStructure.surfaces[0] = exFace := rfl
    rw [hf]
    refine ⟨?_, ?_, exHas "4" (q := 4) (by decide +kernel) (by decide +kernel) (by norm_num [exFace]),
      exHas "0.25" (q := 1 / 4) (by decide +kernel) (by decide +kernel) (by norm_num [exFace]),
      exHas "0.5" (q := 1 / 2) (by decide +kernel) (by decide +kernel) (by norm_num [exFace]),
      exHas "1" (q := 1) (by decide +kernel) (by decide +kernel) (by norm_num [exFace])⟩
    · intro i
      fin_cases i
      · exact o (by decide +kernel) rfl
      · exact z (by decide +kernel) rfl
      · exact z (by decide +kernel) rfl
    · intro i
      fin_cases i
      · exact o (by decide +kernel) rfl
      · exact z (by decide +kernel) rfl
      · exact z (by decide +kernel) rfl
  · intro i
    fin_cases i
    · exact z (by decide +kernel) rfl
    · exact z (by decide +kernel) rfl
    · exact o (by decide +kernel) rfl

example : new exReader (fun _ => exFile) "sat.ini".toList = exStructure :=
  C183_settings exReader _ _ _ rfl _ exStructure_physical exDescribes

example : ticks 1002 0 exStructure = .ok (changed exStructure) := by
  rw [C183_change exStructure (by simp [exStructure]) 1002, if_neg (by omega)]

end S2E.Struct
