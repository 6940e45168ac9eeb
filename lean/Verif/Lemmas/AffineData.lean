import Verif.Model.Pipeline
import Verif.Lemmas.Affine
import Verif.Lemmas.GetIntImgs
import Verif.Lemmas.Loader
import Verif.Lemmas.Data
import Verif.Lemmas.Spatial

/-!
The reduced data of a dataset whose pixel values are `g * x + c`.
-/
set_option autoImplicit false
set_option linter.unusedSectionVars false
namespace Emva
open Spec Finset
variable {F : Type} [Field F] [LinearOrder F] [IsStrictOrderedRing F]

/-! ### one series -/

theorem total_aff (g c : ℤ) (a : Img) : (affImg g c a).total = g * a.total + c * a.size := by
  unfold Img.total affImg Img.size
  simp only [sum_add_distrib, ← mul_sum, sum_const, card_range]
  simp; ring

theorem imgMean_aff (g c : ℤ) (hg : 0 < g) (a : Img) :
    (affImg g c a).mean F = aff (g : F) (c : F) (a.mean F) := by
  unfold Img.mean
  rw [total_aff, show (affImg g c a).size = a.size from rfl]
  have hgF : (0 : F) < (g : F) := by exact_mod_cast hg
  by_cases hs : a.size = 0
  · have ht : a.total = 0 := by
      unfold Img.total
      rcases Nat.mul_eq_zero.1 hs with h | h <;> simp [h]
    simp [hs, ht]
  · have hF : ((a.size : ℕ) : F) ≠ 0 := by exact_mod_cast hs
    rw [Fl.fin_div hF, Fl.fin_div hF, aff_fin]
    congr 1
    push_cast
    field_simp

theorem pxs_aff (g c : ℤ) (imgs : List Img) (i j : ℕ) :
    pxs (imgs.map (affImg g c)) i j = (pxs imgs i j).map fun x => g * x + c := by
  simp [pxs, affImg, Function.comp_def]

theorem sum_map_aff (g c : ℤ) (l : List ℤ) : (l.map fun x => g * x + c).sum = g * l.sum + c * l.length := by
  induction l with
  | nil => simp
  | cons x l ih => simp only [List.map_cons, List.sum_cons, ih, List.length_cons]; push_cast; ring

theorem sumsq_map_aff (g c : ℤ) (l : List ℤ) :
    ((l.map fun x => g * x + c).map fun x => x * x).sum =
      g ^ 2 * (l.map fun x => x * x).sum + 2 * g * c * l.sum + c ^ 2 * l.length := by
  induction l with
  | nil => simp
  | cons x l ih =>
    simp only [List.map_cons, List.sum_cons, List.length_cons]
    rw [ih]; push_cast; ring

theorem foldl_dmean_aff (g c : ℤ) (hg : 0 < g) (imgs : List Img) (s t : IntAcc F)
    (hd : t.dmean = scale (g : F) s.dmean) (ho : t.oi = s.oi.map (affImg g c)) :
    ((imgs.map (affImg g c)).foldl (intStep id) t).dmean = scale (g : F) (imgs.foldl (intStep id) s).dmean := by
  induction imgs generalizing s t with
  | nil => exact hd
  | cons a l ih =>
    simp only [List.map_cons, List.foldl_cons]
    apply ih
    · cases h : s.oi with
      | none => simp [intStep, ho, h, hd]
      | some o =>
        have e1 : (intStep id t (affImg g c a)).dmean =
            t.dmean + ((affImg g c a).mean F - (affImg g c o).mean F) := by simp [intStep, ho, h]
        have e2 : (intStep id s a).dmean = s.dmean + (a.mean F - o.mean F) := by simp [intStep, h]
        rw [e1, e2, imgMean_aff g c hg, imgMean_aff g c hg, aff_sub_aff, hd, scale_add]
    · rfl

/-- the reduced data of a spatial series after the change -/
def affInt (g c : ℤ) (d : IntImgs F) : IntImgs F :=
  { d with
    sum := fun i j => g * d.sum i j + c * d.L
    pvar := fun i j => g ^ 2 * d.pvar i j
    dmean := scale (g : F) d.dmean }

theorem getIntImgs_aff (g c : ℤ) (hg : 0 < g) (imgs : List Img) :
    getIntImgs F id (imgs.map (affImg g c)) = affInt g c (getIntImgs F id imgs) := by
  have hL : ∀ l : List Img, (getIntImgs F id l).L = l.length := fun _ => rfl
  have hp : ∀ i j, (pxs imgs i j).length = imgs.length := fun i j => by simp [pxs]
  have h1 : (getIntImgs F id (imgs.map (affImg g c))).sum = (affInt g c (getIntImgs F id imgs)).sum := by
    funext i j
    rw [sum_id, pxs_aff, sum_map_aff]
    show _ = g * (getIntImgs F id imgs).sum i j + c * (imgs.length : ℕ)
    rw [sum_id, hp]
  have h2 : (getIntImgs F id (imgs.map (affImg g c))).pvar = (affInt g c (getIntImgs F id imgs)).pvar := by
    funext i j
    rw [pvar_id, pxs_aff, sum_map_aff, sumsq_map_aff]
    show _ = g ^ 2 * (getIntImgs F id imgs).pvar i j
    rw [pvar_id, hp]
    simp only [List.length_map]
    ring
  have h3 : (getIntImgs F id (imgs.map (affImg g c))).dmean = (affInt g c (getIntImgs F id imgs)).dmean :=
    foldl_dmean_aff g c hg imgs intInit intInit (by simp [intInit]) rfl
  have h4 : (getIntImgs F id (imgs.map (affImg g c))).h = (getIntImgs F id imgs).h := by
    cases imgs <;> rfl
  have h5 : (getIntImgs F id (imgs.map (affImg g c))).w = (getIntImgs F id imgs).w := by
    cases imgs <;> rfl
  have h6 : (getIntImgs F id (imgs.map (affImg g c))).L = (getIntImgs F id imgs).L := by
    simp [hL]
  have e : ∀ x y : IntImgs F, x.L = y.L → x.h = y.h → x.w = y.w → x.sum = y.sum → x.pvar = y.pvar →
      x.dmean = y.dmean → x = y := by
    rintro ⟨⟩ ⟨⟩; simp; tauto
  exact e _ _ h6 h4 h5 h1 h2 h3

/-- the reduced data of a temporal series after the change; `D` is the change of the total by the offset -/
def affEntry (g D : ℤ) (e : TemporalEntry F) : TemporalEntry F :=
  ⟨g * e.sum + D, g ^ 2 * e.pvar, scale (g : F) e.dmean⟩

theorem temporalEntry_aff (g c : ℤ) (hg : 0 < g) (imgs : List Img) (h w : ℕ)
    (hs : ∀ a ∈ imgs, a.shape = (h, w)) :
    temporalEntry F id (imgs.map (affImg g c)) =
      affEntry g (c * imgs.length * h * w) (temporalEntry F id imgs) := by
  unfold temporalEntry affEntry
  rw [getIntImgs_aff g c hg]
  simp only [affInt, sumImg, id]
  have key : (imgs = [] ∨ ((getIntImgs F id imgs).h = h ∧ (getIntImgs F id imgs).w = w)) := by
    cases imgs with
    | nil => exact .inl rfl
    | cons a l =>
      have := hs a (by simp)
      simp only [Img.shape, Prod.mk.injEq] at this
      exact .inr this
  congr 1
  · rcases key with rfl | ⟨h1, h2⟩
    · simp [getIntImgs]
    · simp only [sum_add_distrib, ← mul_sum, sum_const, card_range, h1, h2]
      rw [show (getIntImgs F id imgs).L = imgs.length from rfl]
      simp; ring
  · rw [mul_sum]
    exact sum_congr rfl fun i _ => (mul_sum ..).symm

/-! ### the loader -/

/-- apply a function to the values of a dictionary -/
def mapV {K V W : Type} (f : V → W) (d : Dict K V) : Dict K W := d.map fun p => (p.1, f p.2)

section mapV
variable {K V W : Type} [DecidableEq K] (f : V → W)

@[simp] theorem keys_mapV (d : Dict K V) : Dict.keys (mapV f d) = Dict.keys d := by
  simp [mapV, Dict.keys, Function.comp_def]

@[simp] theorem get?_mapV (d : Dict K V) (k : K) : Dict.get? (mapV f d) k = (Dict.get? d k).map f := by
  induction d with
  | nil => rfl
  | cons p d ih =>
    obtain ⟨a, b⟩ := p
    show (if a = k then some (f b) else Dict.get? (mapV f d) k) = _
    rw [ih]
    show _ = (if a = k then some b else Dict.get? d k).map f
    split <;> rfl

theorem set_mapV (d : Dict K V) (k : K) (v : V) : Dict.set (mapV f d) k (f v) = mapV f (Dict.set d k v) := by
  induction d with
  | nil => rfl
  | cons p d ih =>
    obtain ⟨a, b⟩ := p
    show (if a = k then (a, f v) :: mapV f d else (a, f b) :: Dict.set (mapV f d) k (f v)) = mapV f (Dict.set ((a, b) :: d) k v)
    rw [ih]
    simp only [Dict.set]
    split <;> rfl

theorem setdefault_mapV (d : Dict K V) (k : K) (v : V) :
    Dict.setdefault (mapV f d) k (f v) = mapV f (Dict.setdefault d k v) := by
  unfold Dict.setdefault Dict.has
  rw [get?_mapV, Option.isSome_map]
  split
  · rfl
  · exact set_mapV f d k v

end mapV

namespace Loader
open Parser

section
variable {K : Type} [DecidableEq K] {V W : Type}
  (fload : Str → Option (Except PyErr Img)) (path : Str)

/-- reading files with changed images -/
theorem loadImgs_aff (g c : ℤ) (fs : List Str) (sh : List (ℕ × ℕ)) :
    loadImgs (affFiles g c fload) path fs sh =
      (loadImgs fload path fs sh).map fun r => (r.1.map (affImg g c), r.2) := by
  induction fs generalizing sh with
  | nil => rfl
  | cons f fs ih =>
    unfold loadImgs
    cases h : fload (Py.join1 path f) with
    | none =>
      have : affFiles g c fload (Py.join1 path f) = none := by simp [affFiles, h]
      rw [this]; rfl
    | some r =>
      cases r with
      | error e =>
        have : affFiles g c fload (Py.join1 path f) = some (.error e) := by simp [affFiles, h, Except.map]
        rw [this]; rfl
      | ok img =>
        have : affFiles g c fload (Py.join1 path f) = some (.ok (affImg g c img)) := by
          simp [affFiles, h, Except.map]
        rw [this]
        have hs : (affImg g c img).shape = img.shape := rfl
        simp only [hs, ih]
        split
        · rfl
        · cases loadImgs fload path fs (addShape sh img.shape) <;> rfl

theorem loadPhotons_aff (g c : ℤ) (red : List Img → V) (e : K) (l : List (K × List Str))
    (st : KindData K V × List (ℕ × ℕ)) :
    loadPhotons (affFiles g c fload) path red e l st =
      loadPhotons fload path (fun imgs => red (imgs.map (affImg g c))) e l st := by
  induction l generalizing st with
  | nil => rfl
  | cons p l ih =>
    obtain ⟨ph, fs⟩ := p
    obtain ⟨d, sh⟩ := st
    simp only [loadPhotons]
    rw [loadImgs_aff]
    cases loadImgs fload path fs sh with
    | error e => rfl
    | ok r => simp only [Except.map]; exact ih _

theorem loadExposures_aff (g c : ℤ) (red : List Img → V) (zero : K) (images : Images K) (es : List K)
    (st : KindData K V × List (ℕ × ℕ)) :
    loadExposures (affFiles g c fload) path red zero images es st =
      loadExposures fload path (fun imgs => red (imgs.map (affImg g c))) zero images es st := by
  induction es generalizing st with
  | nil => rfl
  | cons e es ih =>
    simp only [loadExposures, loadPhotons_aff, ih]

/-- apply a function to all reduced data -/
def mapKD (f : V → W) (d : KindData K V) : KindData K W := mapV (mapV f) d

/-- every reduced datum satisfies `P` -/
def AllKD (P : V → Prop) (d : KindData K V) : Prop := ∀ e ∈ d, ∀ p ∈ e.2, P p.2

/-- the reduction can be done after the loading -/
theorem loadPhotons_raw (red : List Img → V) (e : K) (l : List (K × List Str))
    (d : KindData K (List Img)) (sh : List (ℕ × ℕ)) :
    loadPhotons fload path red e l (mapKD red d, sh) =
      (loadPhotons fload path id e l (d, sh)).map fun st => (mapKD red st.1, st.2) := by
  induction l generalizing d sh with
  | nil => rfl
  | cons p l ih =>
    obtain ⟨ph, fs⟩ := p
    simp only [loadPhotons]
    cases loadImgs fload path fs sh with
    | error e => rfl
    | ok r =>
      obtain ⟨imgs, sh'⟩ := r
      simp only [id]
      rw [← ih]
      congr 2
      unfold mapKD
      have h1 : Dict.setdefault (mapV (mapV red) d) e [] = mapV (mapV red) (Dict.setdefault d e []) :=
        setdefault_mapV (mapV red) d e []
      rw [h1, get?_mapV]
      have h2 : (Option.map (mapV red) (Dict.get? (Dict.setdefault d e []) e)).getD [] =
          mapV red ((Dict.get? (Dict.setdefault d e []) e).getD []) := by
        cases Dict.get? (Dict.setdefault d e []) e <;> rfl
      rw [h2, set_mapV, set_mapV]

theorem loadExposures_raw (red : List Img → V) (zero : K) (images : Images K) (es : List K)
    (d : KindData K (List Img)) (sh : List (ℕ × ℕ)) :
    loadExposures fload path red zero images es (mapKD red d, sh) =
      (loadExposures fload path id zero images es (d, sh)).map fun st => (mapKD red st.1, st.2) := by
  induction es generalizing d sh with
  | nil => rfl
  | cons e es ih =>
    simp only [loadExposures]
    cases Dict.get? images e with
    | none => rfl
    | some inner =>
      dsimp only
      split
      · rfl
      · split
        · rfl
        · rw [loadPhotons_raw]
          cases loadPhotons fload path id e inner (d, sh) with
          | error e => rfl
          | ok st => obtain ⟨d', sh'⟩ := st; exact ih d' sh'

theorem mem_set {d : Dict K V} {k : K} {v : V} {p : K × V} (h : p ∈ Dict.set d k v) : p ∈ d ∨ p.2 = v := by
  induction d with
  | nil => simp only [Dict.set, List.mem_singleton] at h; exact .inr (by rw [h])
  | cons q d ih =>
    obtain ⟨a, b⟩ := q
    simp only [Dict.set] at h
    split at h
    · rcases List.mem_cons.1 h with rfl | h
      · exact .inr rfl
      · exact .inl (by simp [h])
    · rcases List.mem_cons.1 h with rfl | h
      · exact .inl (by simp)
      · rcases ih h with h | h
        · exact .inl (by simp [h])
        · exact .inr h

theorem mem_of_get? {d : Dict K V} {k : K} {v : V} (h : Dict.get? d k = some v) : (k, v) ∈ d := by
  induction d with
  | nil => simp at h
  | cons q d ih =>
    obtain ⟨a, b⟩ := q
    simp only [Dict.get?] at h
    split at h
    · rename_i e; simp only [Option.some.injEq] at h; simp [e, h]
    · simp [ih h]

theorem allKD_step {P : V → Prop} {d : KindData K V} (hd : AllKD P d) (e p : K) {v : V} (hv : P v) :
    AllKD P (Dict.set (Dict.setdefault d e []) e
      (Dict.set ((Dict.get? (Dict.setdefault d e []) e).getD []) p v)) := by
  have h0 : AllKD P (Dict.setdefault d e []) := by
    unfold Dict.setdefault
    split
    · exact hd
    · intro x hx y hy
      rcases mem_set hx with hx | hx
      · exact hd x hx y hy
      · rw [hx] at hy; simp at hy
  intro x hx y hy
  rcases mem_set hx with hx | hx
  · exact h0 x hx y hy
  · rw [hx] at hy
    rcases mem_set hy with hy | hy
    · cases hg : Dict.get? (Dict.setdefault d e []) e with
      | none => rw [hg] at hy; simp at hy
      | some i =>
        rw [hg] at hy
        exact h0 _ (mem_of_get? hg) y hy
    · rw [hy]; exact hv

/-- a loaded series: the number of images, and where the shapes are -/
def Series (N : ℕ → Prop) (sh : List (ℕ × ℕ)) (imgs : List Img) : Prop :=
  N imgs.length ∧ ∀ a ∈ imgs, a.shape ∈ sh

theorem AllKD.mono {P Q : V → Prop} (h : ∀ v, P v → Q v) {d : KindData K V} (hd : AllKD P d) : AllKD Q d :=
  fun e he p hp => h _ (hd e he p hp)

theorem loadImgs_series (fs : List Str) (sh : List (ℕ × ℕ)) (imgs : List Img) (sh' : List (ℕ × ℕ))
    (h : loadImgs fload path fs sh = .ok (imgs, sh')) :
    imgs.length = fs.length ∧ (∀ a ∈ imgs, a.shape ∈ sh') ∧ (∀ s ∈ sh, s ∈ sh') ∧
      (sh.length ≤ 1 → sh'.length ≤ 1) := by
  induction fs generalizing sh imgs with
  | nil =>
    simp only [loadImgs, Except.ok.injEq, Prod.mk.injEq] at h
    obtain ⟨rfl, rfl⟩ := h
    simp
  | cons f fs ih =>
    simp only [loadImgs] at h
    split at h
    · simp at h
    · simp at h
    · rename_i img _
      split at h
      · simp at h
      · rename_i hl
        split at h
        · simp at h
        · rename_i l sh'' hl'
          simp only [Except.ok.injEq, Prod.mk.injEq] at h
          obtain ⟨rfl, rfl⟩ := h
          obtain ⟨h1, h2, h3, h4⟩ := ih _ _ hl'
          refine ⟨by simp [h1], ?_, fun s hs => h3 s ((mem_addShape _ _ _).2 (.inl hs)), fun _ => h4 (by omega)⟩
          intro a ha
          rcases List.mem_cons.1 ha with rfl | ha
          · exact h3 _ ((mem_addShape _ _ _).2 (.inr rfl))
          · exact h2 a ha

theorem loadPhotons_series (N : ℕ → Prop) (e : K) (l : List (K × List Str)) (hN : ∀ p ∈ l, N p.2.length)
    (st st' : KindData K (List Img) × List (ℕ × ℕ)) (h : loadPhotons fload path id e l st = .ok st')
    (hd : AllKD (Series N st.2) st.1) :
    AllKD (Series N st'.2) st'.1 ∧ (∀ s ∈ st.2, s ∈ st'.2) ∧ (st.2.length ≤ 1 → st'.2.length ≤ 1) := by
  induction l generalizing st with
  | nil => simp only [loadPhotons, Except.ok.injEq] at h; subst h; exact ⟨hd, fun _ h => h, id⟩
  | cons p l ih =>
    obtain ⟨ph, fs⟩ := p
    obtain ⟨d, sh⟩ := st
    simp only [loadPhotons] at h
    split at h
    · simp at h
    · rename_i imgs sh' hl
      obtain ⟨h1, h2, h3, h4⟩ := loadImgs_series fload path fs sh imgs sh' hl
      obtain ⟨g1, g2, g3⟩ := ih (fun p hp => hN p (by simp [hp])) _ h
        (allKD_step (hd.mono fun v hv => ⟨hv.1, fun a ha => h3 _ (hv.2 a ha)⟩) e ph
          ⟨by simpa [h1] using hN (ph, fs) (by simp), h2⟩)
      exact ⟨g1, fun s hs => g2 s (h3 s hs), fun hs => g3 (h4 hs)⟩

theorem loadExposures_series (N : ℕ → Prop) (zero : K) (images : Images K) (es : List K)
    (hN : ∀ e ∈ images, ∀ p ∈ e.2, N p.2.length)
    (st st' : KindData K (List Img) × List (ℕ × ℕ)) (h : loadExposures fload path id zero images es st = .ok st')
    (hd : AllKD (Series N st.2) st.1) :
    AllKD (Series N st'.2) st'.1 ∧ (∀ s ∈ st.2, s ∈ st'.2) ∧ (st.2.length ≤ 1 → st'.2.length ≤ 1) := by
  induction es generalizing st with
  | nil => simp only [loadExposures, Except.ok.injEq] at h; subst h; exact ⟨hd, fun _ h => h, id⟩
  | cons e es ih =>
    simp only [loadExposures] at h
    split at h
    · simp at h
    · rename_i inner hi
      split at h
      · simp at h
      · split at h
        · simp at h
        · split at h
          · simp at h
          · rename_i st1 hl
            obtain ⟨h1, h2, h3⟩ := loadPhotons_series fload path N e inner
              (fun p hp => hN (e, inner) (mem_of_get? hi) p hp) st st1 hl hd
            obtain ⟨g1, g2, g3⟩ := ih st1 h h1
            exact ⟨g1, fun s hs => g2 s (h2 s hs), fun hs => g3 (h3 hs)⟩

theorem mapKD_congr {P : List Img → Prop} {d : KindData K (List Img)} (hd : AllKD P d) (red red' : List Img → V)
    (f : V → V) (h : ∀ imgs, P imgs → red' imgs = f (red imgs)) : mapKD red' d = mapKD f (mapKD red d) := by
  unfold mapKD mapV
  rw [List.map_map]
  refine List.map_congr_left fun e he => ?_
  simp only [Function.comp_apply, List.map_map, Prod.mk.injEq, true_and]
  exact List.map_congr_left fun p hp => by simp [h _ (hd e he p hp)]

end

/-- the loaded data after the change; `N` is the number of images of the temporal series -/
def affLoaded (g c : ℤ) (N : ℕ) (r : Loaded F F) : Loaded F F :=
  ⟨mapKD (affEntry g (c * N * r.height * r.width)) r.temporal, mapKD (affInt g c) r.spatial, r.height, r.width⟩

theorem load_aff (g c : ℤ) (hg : 0 < g) (fload : Str → Option (Except PyErr Img)) (path : Str)
    (ord : List F → List F) (images : Kind → Images F) (N : ℕ)
    (hN : ∀ e ∈ images .temporal, ∀ p ∈ e.2, p.2.length = N) :
    load id (affFiles g c fload) path 0 ord images =
      (load id fload path 0 ord images : Except PyErr (Loaded F F)).map (affLoaded g c N) := by
  unfold load
  rw [loadExposures_aff]
  have e1 := loadExposures_raw fload path (fun imgs => temporalEntry F id (imgs.map (affImg g c))) (0 : F)
    (images .temporal) (ord (Dict.keys (images .temporal))) [] []
  have e2 := loadExposures_raw fload path (temporalEntry F id) (0 : F)
    (images .temporal) (ord (Dict.keys (images .temporal))) [] []
  have n1 : ∀ {V W : Type} (f : V → W), mapKD f ([] : KindData F V) = [] := fun _ => rfl
  rw [n1] at e1 e2
  rw [e1, e2]
  cases h1 : loadExposures fload path id (0 : F) (images .temporal) (ord (Dict.keys (images .temporal))) ([], []) with
  | error e => rfl
  | ok st =>
    obtain ⟨t, sh⟩ := st
    simp only [Except.map]
    rw [loadExposures_aff]
    have e3 := loadExposures_raw fload path (fun imgs => getIntImgs F id (imgs.map (affImg g c))) (0 : F)
      (images .spatial) (ord (Dict.keys (images .spatial))) [] sh
    have e4 := loadExposures_raw fload path (getIntImgs F id) (0 : F)
      (images .spatial) (ord (Dict.keys (images .spatial))) [] sh
    rw [n1] at e3 e4
    rw [e3, e4]
    cases h2 : loadExposures fload path id (0 : F) (images .spatial) (ord (Dict.keys (images .spatial))) ([], sh) with
    | error e => rfl
    | ok st' =>
      obtain ⟨s, sh'⟩ := st'
      simp only [Except.map]
      obtain ⟨a1, -, a3⟩ := loadExposures_series fload path (· = N) (0 : F) (images .temporal) _ hN _ _ h1
        (by intro e he; simp at he)
      obtain ⟨b1, b2, b3⟩ := loadExposures_series fload path (fun _ => True) (0 : F) (images .spatial) _
        (fun _ _ _ _ => trivial) _ _ h2 (by intro e he; simp at he)
      match sh', b1, b2, b3 with
      | [], _, _, _ => rfl
      | shape :: rest, b1, b2, b3 =>
        have hr : rest = [] := by
          have := b3 (a3 (by simp))
          simpa using this
        subst hr
        simp only [affLoaded]
        have c1 : mapKD (fun imgs => temporalEntry F id (imgs.map (affImg g c))) t =
            mapKD (affEntry g (c * N * shape.1 * shape.2)) (mapKD (temporalEntry F id) t) := by
          refine mapKD_congr a1 _ _ _ fun imgs hi => ?_
          rw [temporalEntry_aff g c hg imgs shape.1 shape.2 fun a ha => by
            simpa using b2 _ (hi.2 a ha), hi.1]
        have c2 : mapKD (fun imgs => getIntImgs F id (imgs.map (affImg g c))) s =
            mapKD (affInt g c) (mapKD (getIntImgs F id) s) :=
          mapKD_congr b1 _ _ _ fun imgs _ => getIntImgs_aff g c hg imgs
        rw [c1, c2]

end Loader
end Emva
