import Verif.Lemmas.AffineData

/-!
`Data1288` of a dataset whose pixel values are `g * x + c`.
-/
set_option autoImplicit false
set_option linter.unusedSectionVars false
namespace Emva
open Spec Loader
variable {F : Type} [Field F] [LinearOrder F] [IsStrictOrderedRing F]

namespace Data

/-- the temporal data after the change -/
def affTemporal (g δ : F) (t : Temporal F) : Temporal F :=
  { t with
    u_y := t.u_y.map (aff g δ)
    s2_y := t.s2_y.map (scale (g ^ 2))
    u_ydark := t.u_ydark.map (aff g δ)
    s2_ydark := t.s2_ydark.map (scale (g ^ 2)) }

/-- the spatial data of one series after the change -/
def affSpatialData (g c : ℤ) (s : SpatialData F) : SpatialData F :=
  { s with
    sum := fun i j => g * s.sum i j + c * s.L
    var_mean := scale ((g : F) ^ 2) s.var_mean
    avg_var := scale ((g : F) ^ 2) s.avg_var
    avg_mean := aff (g : F) (c : F) s.avg_mean
    avg_var_cav := scale ((g : F) ^ 2) s.avg_var_cav
    avg_var_rav := scale ((g : F) ^ 2) s.avg_var_rav }

/-- the spatial data after the change -/
def affSpatial (g c : ℤ) (s : Spatial F) : Spatial F :=
  { s with dark := affSpatialData g c s.dark, bright := affSpatialData g c s.bright }

/-- the data after the change -/
def affData (g c : ℤ) (D : ℤ) (d : Data1288 F) : Data1288 F :=
  { d with
    temporal := affTemporal (g : F) ((D : F) / (2 * d.pixels)) d.temporal
    spatial := affSpatial g c d.spatial }

theorem temporalData_aff (g D : ℤ) (hg : 0 < g) (px : ℕ) (hD : px = 0 → D = 0) (e : TemporalEntry F) :
    (getTemporalData px (affEntry g D e)).mean =
        aff (g : F) ((D : F) / (2 * px)) (getTemporalData px e).mean ∧
      (getTemporalData px (affEntry g D e)).var - (getTemporalData px (affEntry g D e)).dmean =
        scale ((g : F) ^ 2) ((getTemporalData px e).var - (getTemporalData px e).dmean) := by
  have hgF : (0 : F) < (g : F) := by exact_mod_cast hg
  have hg2 : (0 : F) < (g : F) ^ 2 := by positivity
  constructor
  · simp only [getTemporalData, affEntry, Fl.fin_mul]
    by_cases hp : px = 0
    · have e1 : (Fl.fin ((g * e.sum + D : ℤ) : F) : Fl F) = scale (g : F) (.fin (e.sum : F)) := by
        simp [hD hp]
      rw [e1, scale_div_fin hgF, hD hp]
      simp [scale]
    · have : (2 * (px : F)) ≠ 0 := by
        have : (px : F) ≠ 0 := by exact_mod_cast hp
        simpa using this
      rw [Fl.fin_div this, Fl.fin_div this, aff_fin]
      congr 1
      push_cast
      field_simp
  · simp only [getTemporalData, affEntry, Fl.fin_mul]
    have e1 : (Fl.fin ((g ^ 2 * e.pvar : ℤ) : F) : Fl F) = scale ((g : F) ^ 2) (.fin (e.pvar : F)) := by
      simp
    rw [e1, scale_div_fin hg2, scale_sq hgF, scale_div_fin hg2, scale_sub]

variable (g D : ℤ) (hg : 0 < g) (px : ℕ) (hD : px = 0 → D = 0)

include hg hD in
theorem brightLoop_aff (inner : Dict F (TemporalEntry F)) (ps : List F) (a : Temporal F) :
    brightLoop px (mapV (affEntry g D) inner) ps (affTemporal (g : F) ((D : F) / (2 * px)) a) =
      (brightLoop px inner ps a).map (affTemporal (g : F) ((D : F) / (2 * px))) := by
  induction ps generalizing a with
  | nil => rfl
  | cons p ps ih =>
    simp only [brightLoop, get?_mapV]
    cases Dict.get? inner p with
    | none => rfl
    | some e =>
      obtain ⟨h1, h2⟩ := temporalData_aff (F := F) g D hg px hD e
      simp only [Option.map_some]
      rw [← ih, h1, h2]
      congr 1
      simp [affTemporal]

theorem sortedKeys_mapV {V W : Type} (f : V → W) (d : Dict F V) : sortedKeys (mapV f d) = sortedKeys d := by
  simp [sortedKeys]

include hg hD in
theorem expLoop_aff (data : KindData F (TemporalEntry F)) (ts : List F) (a : Temporal F) :
    expLoop px (mapKD (affEntry g D) data) ts (affTemporal (g : F) ((D : F) / (2 * px)) a) =
      (expLoop px data ts a).map (affTemporal (g : F) ((D : F) / (2 * px))) := by
  induction ts generalizing a with
  | nil => rfl
  | cons t ts ih =>
    simp only [expLoop, mapKD, get?_mapV]
    cases Dict.get? data t with
    | none => rfl
    | some inner =>
      simp only [Option.map_some, sortedKeys_mapV, get?_mapV]
      split
      · rfl
      · split
        · rfl
        · cases Dict.get? inner 0 with
          | none => rfl
          | some e =>
            obtain ⟨h1, h2⟩ := temporalData_aff (F := F) g D hg px hD e
            simp only [Option.map_some]
            rw [h1, h2]
            have := brightLoop_aff g D hg px hD inner ((sortedKeys inner).drop 1) { a with
              u_ydark := a.u_ydark ++ [(getTemporalData px e).mean]
              s2_ydark := a.s2_ydark ++ [(getTemporalData px e).var - (getTemporalData px e).dmean] }
            simp only [affTemporal, List.map_append, List.map_cons, List.map_nil] at this ⊢
            rw [this]
            cases brightLoop px inner ((sortedKeys inner).drop 1) { a with
              u_ydark := a.u_ydark ++ [(getTemporalData px e).mean]
              s2_ydark := a.s2_ydark ++ [(getTemporalData px e).var - (getTemporalData px e).dmean] } with
            | error e => rfl
            | ok a' => exact ih a'

theorem repeatFirst_map {α : Type} (f : α → α) (l : ℕ) (v : List α) :
    repeatFirst l (v.map f) = (repeatFirst l v).map (List.map f) := by
  cases v with
  | nil => rfl
  | cons x v => simp [repeatFirst, Except.map]

include hg hD in
theorem getTemporal_aff (data : KindData F (TemporalEntry F)) :
    getTemporal px (mapKD (affEntry g D) data) =
      (getTemporal px data).map (affTemporal (g : F) ((D : F) / (2 * px))) := by
  unfold getTemporal
  have hk : sortedKeys (mapKD (affEntry g D) data) = sortedKeys data := sortedKeys_mapV _ _
  rw [hk]
  have := expLoop_aff g D hg px hD data (sortedKeys data) ⟨sortedKeys data, [], [], [], [], []⟩
  have e0 : affTemporal (g : F) ((D : F) / (2 * px)) ⟨sortedKeys data, [], [], [], [], []⟩ =
    ⟨sortedKeys data, [], [], [], [], []⟩ := rfl
  rw [e0] at this
  dsimp only
  rw [this]
  cases expLoop px data (sortedKeys data) ⟨sortedKeys data, [], [], [], [], []⟩ with
  | error e => rfl
  | ok t =>
    simp only [Except.map]
    split
    · have a1 : repeatFirst t.u_p.length (affTemporal (g : F) ((D : F) / (2 * px)) t).u_ydark =
        _ := repeatFirst_map (aff (g : F) ((D : F) / (2 * px))) t.u_p.length t.u_ydark
      have a2 : repeatFirst t.u_p.length (affTemporal (g : F) ((D : F) / (2 * px)) t).s2_ydark =
        _ := repeatFirst_map (scale ((g : F) ^ 2)) t.u_p.length t.s2_ydark
      have a3 : (affTemporal (g : F) ((D : F) / (2 * px)) t).u_p = t.u_p := rfl
      have a4 : (affTemporal (g : F) ((D : F) / (2 * px)) t).texp = t.texp := rfl
      rw [a3, a4, a1, a2]
      cases repeatFirst t.u_p.length t.texp with
      | error e => rfl
      | ok a =>
        cases repeatFirst t.u_p.length t.u_ydark with
        | error e => rfl
        | ok b =>
          cases repeatFirst t.u_p.length t.s2_ydark with
          | error e => rfl
          | ok c => rfl
    · rfl

theorem npVar1_aff {a : F} (ha : 0 < a) (b : F) (l : List (Fl F)) :
    npVar1 (l.map (aff a b)) = scale (a ^ 2) (npVar1 l) := by
  unfold npVar1
  rw [mean_aff ha, List.map_map, List.length_map]
  have : (fun x => Fl.sq (x - aff a b (Fl.mean l))) ∘ aff a b =
      scale (a ^ 2) ∘ fun x => Fl.sq (x - Fl.mean l) := by
    funext x
    simp only [Function.comp_apply]
    rw [aff_sub_aff, scale_sq ha]
  rw [this, ← List.map_map, sum_scale, scale_div_fin (by positivity)]

include hg in
theorem getSpatialData_aff (c : ℤ) (rows cols : ℕ) (d : IntImgs F) :
    getSpatialData rows cols (affInt g c d) = (getSpatialData rows cols d).map (affSpatialData g c) := by
  have hgF : (0 : F) < (g : F) := by exact_mod_cast hg
  have hg2 : (0 : F) < (g : F) ^ 2 := by positivity
  unfold getSpatialData
  have h1 : (affInt g c d).L = d.L := rfl
  have h2 : (affInt g c d).h = d.h := rfl
  have h3 : (affInt g c d).w = d.w := rfl
  rw [h1, h2, h3]
  by_cases hL : d.L = 0
  · rw [if_pos hL, if_pos hL]; rfl
  · rw [if_neg hL, if_neg hL]
    have hLF : (0 : F) < (d.L : F) := by exact_mod_cast Nat.pos_of_ne_zero hL
    have ea : (fun i j => (Fl.fin ((affInt g c d).sum i j : F) : Fl F) / .fin (d.L : F)) =
        fun i j => aff (g : F) (c : F) (.fin (d.sum i j : F) / .fin (d.L : F)) := by
      funext i j
      simp only [affInt]
      rw [Fl.fin_div hLF.ne', Fl.fin_div hLF.ne', aff_fin]
      congr 1
      push_cast
      field_simp
    have ev : (fun i j => (Fl.fin ((affInt g c d).pvar i j : F) : Fl F) /
          .fin ((d.L : F) * (d.L : F) * ((d.L : F) - 1))) =
        fun i j => scale ((g : F) ^ 2) (.fin (d.pvar i j : F) / .fin ((d.L : F) * (d.L : F) * ((d.L : F) - 1))) := by
      funext i j
      have : (Fl.fin ((affInt g c d).pvar i j : F) : Fl F) = scale ((g : F) ^ 2) (.fin (d.pvar i j : F)) := by
        simp [affInt]
      rw [this, scale_div_fin hg2]
    have e1 : ∀ f : ℕ → ℕ → Fl F, flat d.h d.w (fun i j => aff (g : F) (c : F) (f i j)) =
        (flat d.h d.w f).map (aff (g : F) (c : F)) := fun f => (flat_map d.h d.w f _).symm
    have e2 : ∀ f : ℕ → ℕ → Fl F, flat d.h d.w (fun i j => scale ((g : F) ^ 2) (f i j)) =
        (flat d.h d.w f).map (scale ((g : F) ^ 2)) := fun f => (flat_map d.h d.w f _).symm
    have e3 : ∀ (n : ℕ) (f : ℕ → Fl F), Fl.mean ((List.range n).map fun i => aff (g : F) (c : F) (f i)) =
        aff (g : F) (c : F) (Fl.mean ((List.range n).map f)) := by
      intro n f
      rw [← mean_aff hgF, List.map_map]; rfl
    have e4 : ∀ (n : ℕ) (f : ℕ → Fl F) (m : Fl F),
        Fl.sum (((List.range n).map fun i => aff (g : F) (c : F) (f i)).map fun x => Fl.sq (x - aff (g : F) (c : F) m)) =
        scale ((g : F) ^ 2) (Fl.sum (((List.range n).map f).map fun x => Fl.sq (x - m))) := by
      intro n f m
      rw [← sum_scale, List.map_map, List.map_map, List.map_map]
      congr 1
      refine List.map_congr_left fun i _ => ?_
      simp only [Function.comp_apply]
      rw [aff_sub_aff, scale_sq hgF]
    have ea' : ∀ i j, (Fl.fin ((affInt g c d).sum i j : F) : Fl F) / .fin (d.L : F) =
        aff (g : F) (c : F) (.fin (d.sum i j : F) / .fin (d.L : F)) := fun i j => congrFun (congrFun ea i) j
    simp only [ea', ev, e1, e2, mean_aff hgF, mean_scale hg2, npVar1_aff hgF, e3, e4]
    split
    · rfl
    · split
      · rfl
      · simp only [Except.map, affSpatialData, scale_mul_fin hg2, scale_div_fin hg2, scale_sub]
        rfl

include hg in
theorem getSpatial_aff (c : ℤ) (rows cols : ℕ) (data : KindData F (IntImgs F)) :
    getSpatial rows cols (mapKD (affInt g c) data) = (getSpatial rows cols data).map (affSpatial g c) := by
  match data with
  | [] => rfl
  | _ :: _ :: _ => rfl
  | [(e, inner)] =>
    simp only [getSpatial, mapKD, mapV, List.map_cons, List.map_nil]
    have k : sortedKeys (List.map (fun p => (p.1, affInt g c p.2)) inner) = sortedKeys inner :=
      sortedKeys_mapV (affInt g c) inner
    have k2 : ∀ x, Dict.get? (List.map (fun p => (p.1, affInt g c p.2)) inner) x =
      (Dict.get? inner x).map (affInt g c) := get?_mapV (affInt g c) inner
    simp only [k, k2]
    split
    · rfl
    · split
      · rfl
      · cases Dict.get? inner 0 with
        | none => rfl
        | some d =>
          simp only [Option.map_some]
          rw [getSpatialData_aff g hg]
          cases getSpatialData rows cols d with
          | error e => rfl
          | ok dark =>
            simp only [Except.map]
            cases (sortedKeys inner)[1]? with
            | none => rfl
            | some b =>
              dsimp only
              cases Dict.get? inner b with
              | none => rfl
              | some x =>
                simp only [Option.map_some]
                rw [getSpatialData_aff g hg]
                cases getSpatialData rows cols x with
                | error e => rfl
                | ok bright => rfl

include hg in
theorem make_aff (c : ℤ) (N : ℕ) (r : Loaded F F) (pixels : Option ℕ) :
    make (affLoaded g c N r) pixels =
      (make r pixels).map (affData g c (c * N * r.height * r.width)) := by
  unfold make
  dsimp only
  have hp : pixelsOf (affLoaded g c N r) pixels = pixelsOf r pixels := by
    cases pixels with
    | none => rfl
    | some n => cases n <;> rfl
  have h0 : pixelsOf r pixels = 0 → c * N * r.height * r.width = 0 := by
    intro h
    have h' : r.width * r.height = 0 := by
      cases pixels with
      | none => exact h
      | some n => cases n with
        | zero => exact h
        | succ n => simp [pixelsOf] at h
    have : (r.width : ℤ) * r.height = 0 := by exact_mod_cast h'
    calc c * N * r.height * r.width = c * N * (r.width * r.height) := by ring
      _ = 0 := by rw [this, mul_zero]
  rw [hp]
  have e1 : getTemporal (pixelsOf r pixels) (affLoaded g c N r).temporal = _ :=
    getTemporal_aff g (c * N * r.height * r.width) hg (pixelsOf r pixels) h0 r.temporal
  have e2 : getSpatial (affLoaded g c N r).height (affLoaded g c N r).width (affLoaded g c N r).spatial = _ :=
    getSpatial_aff g hg c r.height r.width r.spatial
  rw [e1, e2]
  cases getTemporal (pixelsOf r pixels) r.temporal with
  | error e => rfl
  | ok t =>
    simp only [Except.map]
    cases getSpatial r.height r.width r.spatial with
    | error e => rfl
    | ok s => rfl

end Data
end Emva
