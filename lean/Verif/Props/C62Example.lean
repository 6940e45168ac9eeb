import Verif.Props.C62_C64
import Verif.Props.C63
import Verif.Props.C29_C32

/-!
Concrete datasets for C62 and C64.
-/
set_option autoImplicit false
set_option linter.unusedSectionVars false
namespace Emva
open Py Loader Spec Data Results Parser Pipeline

/-- 1 x 2 images: `a`, `b` dark, `c`, `d` bright -/
def unitFs : Str → Option (Except PyErr Img)
  | ['a'] => some (.ok ⟨1, 2, fun _ j => 10 + j⟩)
  | ['b'] => some (.ok ⟨1, 2, fun _ j => 12 - j⟩)
  | ['c'] => some (.ok ⟨1, 2, fun _ j => 50 + 3 * j⟩)
  | ['d'] => some (.ok ⟨1, 2, fun _ j => 56 - j⟩)
  | _ => none

/-- one exposure, dark and bright pairs, and three images each for the spatial data -/
def unitImages (F : Type) [Field F] : Kind → Images F
  | .temporal => [(1, [(0, [['a'], ['b']]), (1, [['c'], ['d']])])]
  | .spatial => [(1, [(0, [['a'], ['b'], ['a']]), (1, [['c'], ['d'], ['c']])])]

theorem unit_load : ∃ imgs : Loaded ℝ ℝ, load id unitFs [] 0 id (unitImages ℝ) = .ok imgs ∧
    imgs.temporal = [(1, [(0, temporalEntry ℝ id [⟨1, 2, fun _ j => 10 + j⟩, ⟨1, 2, fun _ j => 12 - j⟩]),
      (1, temporalEntry ℝ id [⟨1, 2, fun _ j => 50 + 3 * j⟩, ⟨1, 2, fun _ j => 56 - j⟩])])] ∧
    imgs.spatial = [(1, [(0, getIntImgs ℝ id [⟨1, 2, fun _ j => 10 + j⟩, ⟨1, 2, fun _ j => 12 - j⟩, ⟨1, 2, fun _ j => 10 + j⟩]),
      (1, getIntImgs ℝ id [⟨1, 2, fun _ j => 50 + 3 * j⟩, ⟨1, 2, fun _ j => 56 - j⟩, ⟨1, 2, fun _ j => 50 + 3 * j⟩])])] ∧
    imgs.height = 1 ∧ imgs.width = 2 := by
  simp [load, loadExposures, loadPhotons, unitImages, Dict.keys, Dict.get?, loadImgs, unitFs, join1, addShape, Img.shape,
    Dict.setdefault, Dict.has, Dict.set]

theorem unit_temporal : getTemporal 2 ([(1, [(0, temporalEntry ℝ id [⟨1, 2, fun _ j => 10 + j⟩, ⟨1, 2, fun _ j => 12 - j⟩]),
      (1, temporalEntry ℝ id [⟨1, 2, fun _ j => 50 + 3 * j⟩, ⟨1, 2, fun _ j => 56 - j⟩])])] : KindData ℝ (TemporalEntry ℝ)) =
    .ok { texp := [1], u_p := [1], u_y := [.fin (107 / 2)], s2_y := [.fin 2], u_ydark := [.fin 11], s2_ydark := [.fin (1 / 2)] } := by
  simp [getTemporal, expLoop, brightLoop, sortedKeys, Dict.keys, Dict.get?, repeatFirst, getTemporalData, temporalEntry, getIntImgs,
    intStep, intInit, sumImg, Finset.sum_range_succ, Img.mean, Img.size]
  norm_num [Fl.fin_div, Img.total, Finset.sum_range_succ, Fl.sq_fin]

theorem unit_spatial (a b : List Img) (ha : a ≠ []) (hb : b ≠ []) :
    ∃ s, getSpatial 1 2 ([(1, [(0, getIntImgs ℝ id a), (1, getIntImgs ℝ id b)])] : KindData ℝ (IntImgs ℝ)) = .ok s := by
  simp [getSpatial, sortedKeys, Dict.keys, Dict.get?, getSpatialData, getIntImgs, ha, hb]

/-- The dataset is evaluated; the hypotheses of C62 and C64 hold for it. -/
theorem unit_evaluate : ∃ r, evaluate id unitFs [] id (unitImages ℝ) none none none = .ok r ∧
    r.temporal = { texp := [1], u_p := [1], u_y := [.fin (107 / 2)], s2_y := [.fin 2], u_ydark := [.fin 11], s2_ydark := [.fin (1 / 2)] } := by
  obtain ⟨imgs, h1, h2, h3, h4, h5⟩ := unit_load
  obtain ⟨s, hs⟩ := unit_spatial [⟨1, 2, fun _ j => 10 + j⟩, ⟨1, 2, fun _ j => 12 - j⟩, ⟨1, 2, fun _ j => 10 + j⟩]
    [⟨1, 2, fun _ j => 50 + 3 * j⟩, ⟨1, 2, fun _ j => 56 - j⟩, ⟨1, 2, fun _ j => 50 + 3 * j⟩] (by simp) (by simp)
  have hp : pixelsOf imgs none = 2 := by simp [pixelsOf, h4, h5]
  unfold evaluate
  simp only [bind, Except.bind, h1]
  unfold Data.make
  simp only [hp, h2, unit_temporal, h4, h5, h3, hs]
  exact ⟨_, rfl, rfl⟩

example : (∀ e ∈ unitImages ℝ .temporal, ∀ p ∈ e.2, p.2.length = 2) ∧
    (∀ f img, unitFs f = some (.ok img) → ∀ i < img.h, ∀ j < img.w, 0 ≤ img.px i j ∧ 0 ≤ img.px i j + 5) := by
  constructor
  · simp only [unitImages, List.mem_cons, List.not_mem_nil, or_false]; aesop
  · intro f img hf
    unfold unitFs at hf
    split at hf <;> simp only [Option.some.injEq, Except.ok.injEq, reduceCtorEq] at hf <;> subst hf <;>
      intro i hi j hj <;> simp only at hi hj ⊢ <;> omega

/-- C64 on the sample: with all pixel values tripled (and increased by 7) `R`, the responsivity, is three times as
large and `QE` the same. -/
example : ∃ r r', evaluate id unitFs [] id (unitImages ℝ) none none none = .ok r ∧
    evaluate id (affFiles 3 7 unitFs) [] id (unitImages ℝ) none none none = .ok r' ∧
    (Results.read (exactLSQ ℝ) .R r').1 = (Results.read (exactLSQ ℝ) .R r).1.map (convert 3) ∧
    (Results.read (exactLSQ ℝ) .QE r').1 = (Results.read (exactLSQ ℝ) .QE r).1 := by
  obtain ⟨r, h1, h2⟩ := unit_evaluate
  have h := C64_gain_equivariance unitFs [] id (unitImages ℝ) none none none (exactLSQ ℝ) Fit.exactLSQ_good 3 7 (by norm_num) 2
    (by simp only [unitImages, List.mem_cons, List.not_mem_nil, or_false]; aesop)
  rw [h1] at h
  cases h' : evaluate id (affFiles 3 7 unitFs) [] id (unitImages ℝ) none none none with
  | error e => rw [h'] at h; exact h.elim
  | ok r' =>
    rw [h'] at h
    have h := h (by rw [h2]; simp) (by rw [h2]; simp; norm_num) [] []
    refine ⟨r, r', h1, rfl, ?_, ?_⟩
    · have := h .R 1 rfl
      simpa [Results.readAll] using this
    · have := h .QE 0 rfl
      simp only [Results.readAll, zpow_zero] at this
      rw [this]
      cases (Results.read (exactLSQ ℝ) .QE r).1 with
      | error e => rfl
      | ok v => simp [Except.map, convert_one]

/-! ### what does not hold -/

/-- as `unitImages`, with two identical dark images -/
def quietImages (F : Type) [Field F] : Kind → Images F
  | .temporal => [(1, [(0, [['a'], ['a']]), (1, [['c'], ['d']])])]
  | .spatial => [(1, [(0, [['a'], ['b'], ['a']]), (1, [['c'], ['d'], ['c']])])]

theorem quiet_temporal : getTemporal 2 ([(1, [(0, temporalEntry ℝ id [⟨1, 2, fun _ j => 10 + j⟩, ⟨1, 2, fun _ j => 10 + j⟩]),
      (1, temporalEntry ℝ id [⟨1, 2, fun _ j => 50 + 3 * j⟩, ⟨1, 2, fun _ j => 56 - j⟩])])] : KindData ℝ (TemporalEntry ℝ)) =
    .ok { texp := [1], u_p := [1], u_y := [.fin (107 / 2)], s2_y := [.fin 2], u_ydark := [.fin (21 / 2)], s2_ydark := [.fin 0] } := by
  simp [getTemporal, expLoop, brightLoop, sortedKeys, Dict.keys, Dict.get?, repeatFirst, getTemporalData, temporalEntry, getIntImgs,
    intStep, intInit, sumImg, Finset.sum_range_succ, Img.mean, Img.size]
  norm_num [Fl.fin_div, Img.total, Finset.sum_range_succ, Fl.sq_fin]

theorem quiet_evaluate : ∃ r, evaluate id unitFs [] id (quietImages ℝ) none none none = .ok r ∧
    r.temporal = { texp := [1], u_p := [1], u_y := [.fin (107 / 2)], s2_y := [.fin 2], u_ydark := [.fin (21 / 2)], s2_ydark := [.fin 0] } := by
  have hl : ∃ imgs : Loaded ℝ ℝ, load id unitFs [] 0 id (quietImages ℝ) = .ok imgs ∧
    imgs.temporal = [(1, [(0, temporalEntry ℝ id [⟨1, 2, fun _ j => 10 + j⟩, ⟨1, 2, fun _ j => 10 + j⟩]),
      (1, temporalEntry ℝ id [⟨1, 2, fun _ j => 50 + 3 * j⟩, ⟨1, 2, fun _ j => 56 - j⟩])])] ∧
    imgs.spatial = [(1, [(0, getIntImgs ℝ id [⟨1, 2, fun _ j => 10 + j⟩, ⟨1, 2, fun _ j => 12 - j⟩, ⟨1, 2, fun _ j => 10 + j⟩]),
      (1, getIntImgs ℝ id [⟨1, 2, fun _ j => 50 + 3 * j⟩, ⟨1, 2, fun _ j => 56 - j⟩, ⟨1, 2, fun _ j => 50 + 3 * j⟩])])] ∧
    imgs.height = 1 ∧ imgs.width = 2 := by
    simp [load, loadExposures, loadPhotons, quietImages, Dict.keys, Dict.get?, loadImgs, unitFs, join1, addShape, Img.shape,
      Dict.setdefault, Dict.has, Dict.set]
  obtain ⟨imgs, h1, h2, h3, h4, h5⟩ := hl
  obtain ⟨s, hs⟩ := unit_spatial [⟨1, 2, fun _ j => 10 + j⟩, ⟨1, 2, fun _ j => 12 - j⟩, ⟨1, 2, fun _ j => 10 + j⟩]
    [⟨1, 2, fun _ j => 50 + 3 * j⟩, ⟨1, 2, fun _ j => 56 - j⟩, ⟨1, 2, fun _ j => 50 + 3 * j⟩] (by simp) (by simp)
  have hp : pixelsOf imgs none = 2 := by simp [pixelsOf, h4, h5]
  unfold evaluate
  simp only [bind, Except.bind, h1]
  unfold Data.make
  simp only [hp, h2, quiet_temporal, h4, h5, h3, hs]
  exact ⟨_, rfl, rfl⟩

/-- C64, the attributes without an exponent: `sigma_y_dark` has an absolute lower limit in digital numbers, so it does
not scale. For this dataset it has the same value whatever the gain. -/
theorem C64_sigma_y_dark_does_not_scale (q : LSQ ℝ) (hq : q.Good) (g c : ℤ) (hg : 0 < g) :
    ∃ r r' σ, evaluate id unitFs [] id (quietImages ℝ) none none none = .ok r ∧
      evaluate id (affFiles g c unitFs) [] id (quietImages ℝ) none none none = .ok r' ∧ 0 < σ ∧
      (Results.read q .sigma_y_dark r).1 = .ok (.num (.num (.fin σ))) ∧
      (Results.read q .sigma_y_dark r').1 = .ok (.num (.num (.fin σ))) ∧
      ((Results.read q .sigma_y_dark r').1 = (Results.read q .sigma_y_dark r).1.map (convert g) ↔ g = 1) := by
  obtain ⟨r, h1, h2⟩ := quiet_evaluate
  obtain ⟨δ, h'⟩ := evaluate_aff g c hg unitFs [] id (quietImages ℝ) none none none 2
    (by simp only [quietImages, List.mem_cons, List.not_mem_nil, or_false]; aesop)
  rw [h1] at h'
  have ht : (affRes g c δ r).temporal.s2_ydark = [.fin 0] ∧ (affRes g c δ r).temporal.texp = [1] := by
    simp [affRes, affTemporal, h2, scale, aff]
  have key : ∀ r : Res ℝ, r.temporal.s2_ydark = [.fin 0] → r.temporal.texp = [1] →
      (Results.read q .sigma_y_dark r).1 = .ok (.num (.num (.fin (Real.sqrt 0.24)))) := by
    intro r e1 e2
    obtain ⟨v, σ, hv, hs, hσ, h24, -⟩ := C31_lower_limit q hq r [0] e1 (by rw [e2]; rfl) (by simp)
    have hv0 : v = 0 := by
      rcases hv with ⟨-, h⟩ | ⟨h, -⟩
      · simpa using h.symm
      · simp [e2] at h
    have : σ = Real.sqrt 0.24 := by
      rw [← Real.sqrt_sq hσ.le, h24, hv0]; norm_num
    rw [← this]
    exact val_bind_ok (stable_sigmaYDark q) (by stab) hs
  refine ⟨r, _, Real.sqrt 0.24, h1, h', Real.sqrt_pos.2 (by norm_num), key r (by rw [h2]) (by rw [h2]), key _ ht.1 ht.2, ?_⟩
  rw [key r (by rw [h2]) (by rw [h2]), key _ ht.1 ht.2]
  have hpos : (0 : ℝ) < Real.sqrt 0.24 := Real.sqrt_pos.2 (by norm_num)
  simp only [Except.map, convert, scale, aff, add_zero, Except.ok.injEq, Value.num.injEq, PyNum.num.injEq, Fl.fin.injEq]
  constructor
  · intro h
    have : (g : ℝ) = 1 := by
      have h := mul_right_cancel₀ hpos.ne' ((one_mul _).trans h)
      exact h.symm
    exact_mod_cast this
  · rintro rfl
    simp

/-- C62 needs series of one length: the mean is always taken over two images, so with two dark and three bright images
(not reachable from a descriptor file, whose temporal series have two images) an offset of 2 moves the signal. -/
theorem C62_unequal_series :
    let images : Kind → Images ℚ
      | .temporal => [(1, [(0, [['a'], ['b']]), (1, [['c'], ['d'], ['d']])])]
      | .spatial => [(1, [(0, [['a'], ['b'], ['a']]), (1, [['c'], ['d'], ['c']])])]
    let means := fun fs => (evaluate id fs [] id images none none none).toOption.map fun r =>
      (r.temporal.u_y, r.temporal.u_ydark)
    means unitFs = some ([.fin (325 / 4)], [.fin 11]) ∧
      means (affFiles 1 2 unitFs) = some ([.fin (325 / 4 + 3)], [.fin (11 + 2)]) := by
  decide +kernel

end Emva
