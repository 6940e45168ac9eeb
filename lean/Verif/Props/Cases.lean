import Verif.Props.C56
import Verif.Props.C51_C52
import Verif.Props.C79Example
import Verif.Props.C85
import Verif.Props.C92Files
import Verif.Props.C97Float
import Verif.Props.C101Example
import Verif.Props.C104Example

/-!
Concrete cases for C56, C68, C79, C85, C92, C97, C101 and C104.
-/
set_option autoImplicit false
namespace Emva
open Py Loader Spec Data Results Parser Pipeline

/-- the hypotheses of `C79_arguments`: two pixels, and the number of pixels given as 3 -/
theorem unit_evaluate_given (wrap : ℤ → ℤ) : ∃ r, evaluate wrap unitFs [] id (unitImages ℝ) (some 3) (some 25) (some 0) = .ok r := by
  have hl : ∃ imgs : Loaded ℝ ℝ, load wrap unitFs [] 0 id (unitImages ℝ) = .ok imgs ∧
    imgs.temporal = [(1, [(0, temporalEntry ℝ wrap [⟨1, 2, fun _ j => 10 + j⟩, ⟨1, 2, fun _ j => 12 - j⟩]),
      (1, temporalEntry ℝ wrap [⟨1, 2, fun _ j => 50 + 3 * j⟩, ⟨1, 2, fun _ j => 56 - j⟩])])] ∧
    imgs.spatial = [(1, [(0, getIntImgs ℝ wrap [⟨1, 2, fun _ j => 10 + j⟩, ⟨1, 2, fun _ j => 12 - j⟩, ⟨1, 2, fun _ j => 10 + j⟩]),
      (1, getIntImgs ℝ wrap [⟨1, 2, fun _ j => 50 + 3 * j⟩, ⟨1, 2, fun _ j => 56 - j⟩, ⟨1, 2, fun _ j => 50 + 3 * j⟩])])] ∧
    imgs.height = 1 ∧ imgs.width = 2 := by
    simp [load, loadExposures, loadPhotons, unitImages, Dict.keys, Dict.get?, loadImgs, unitFs, join1, addShape, Img.shape,
      Dict.setdefault, Dict.has, Dict.set]
  obtain ⟨imgs, h1, h2, h3, h4, h5⟩ := hl
  have hp : pixelsOf imgs (some 3) = 3 := by simp [pixelsOf]
  have ht : ∀ a b : TemporalEntry ℝ, ∃ t, getTemporal 3 ([(1, [(0, a), (1, b)])] : KindData ℝ (TemporalEntry ℝ)) = .ok t := by
    intro a b
    simp [getTemporal, expLoop, brightLoop, sortedKeys, Dict.keys, Dict.get?, repeatFirst]
  have hs : ∀ a b : List Img, a ≠ [] → b ≠ [] →
      ∃ s, getSpatial 1 2 ([(1, [(0, getIntImgs ℝ wrap a), (1, getIntImgs ℝ wrap b)])] : KindData ℝ (IntImgs ℝ)) = .ok s := by
    intro a b ha hb
    simp [getSpatial, sortedKeys, Dict.keys, Dict.get?, getSpatialData, getIntImgs, ha, hb]
  obtain ⟨t, ht⟩ := ht (temporalEntry ℝ wrap [⟨1, 2, fun _ j => 10 + j⟩, ⟨1, 2, fun _ j => 12 - j⟩])
    (temporalEntry ℝ wrap [⟨1, 2, fun _ j => 50 + 3 * j⟩, ⟨1, 2, fun _ j => 56 - j⟩])
  obtain ⟨s, hs⟩ := hs [⟨1, 2, fun _ j => 10 + j⟩, ⟨1, 2, fun _ j => 12 - j⟩, ⟨1, 2, fun _ j => 10 + j⟩]
    [⟨1, 2, fun _ j => 50 + 3 * j⟩, ⟨1, 2, fun _ j => 56 - j⟩, ⟨1, 2, fun _ j => 50 + 3 * j⟩] (by simp) (by simp)
  unfold evaluate
  simp only [bind, Except.bind, h1]
  unfold Data.make
  simp only [hp, h2, ht, h4, h5, h3, hs]
  exact ⟨_, rfl⟩

example : ∃ r, evaluate i64 unitFs [] id (unitImages ℝ) (some 3) (some 25) (some 0) = .ok r ∧ r.pixel_area = some 25 ∧
    r.index_u_ysat = some 0 := by
  obtain ⟨r, h⟩ := unit_evaluate_given i64
  obtain ⟨h1, h2, -⟩ := C79_arguments unitFs [] id (fun _ => List.Perm.refl _) (unitImages ℝ) wf_unit (by
      intro e p fs hp
      simp only [get2, unitImages, Dict.get?] at hp
      split_ifs at hp with he
      swap
      · cases hp
      simp only [Option.bind_some, Dict.get?] at hp
      split_ifs at hp with h0 h1
      · exact h0 ▸ le_rfl
      · exact h1 ▸ zero_le_one) 3 (by norm_num) (some 25) (some 0) r h 1 2 255 (by
      intro e p fs hp
      simp only [get2, unitImages, Dict.get?] at hp
      split_ifs at hp with he
      swap
      · cases hp
      simp only [Option.bind_some, Dict.get?] at hp
      split_ifs at hp with h0 h1
      all_goals
        obtain rfl := Option.some.inj hp
        refine ⟨_, _, rfl, by decide, rfl, rfl, rfl, rfl, ?_, ?_, by norm_num⟩ <;>
        · intro i _ j hj
          constructor <;> simp only at hj ⊢ <;> omega)
  exact ⟨r, h, h1, h2⟩

/-- the hypotheses of `C101_few`: one exposure time -/
example := C101_few Rounding.binary64 (exactLSQ ℝ) sampleFew (by
  show ([1, 1, 1, 1, (1 : ℝ)]).toFinset.card ≤ 2
  simp)

/-- the hypotheses of `C104_spectrogram_not_percent` -/
example := C104_spectrogram_not_percent unitFs [] id (unitImages ℝ) none none none (exactLSQ ℝ) 3 (by norm_num) 2
  (by simp only [unitImages, List.mem_cons, List.not_mem_nil, or_false]; aesop) true

/-- the hypotheses of `C85_clipped`: 20 bits -/
example := C85_clipped 20 (by norm_num) (by norm_num) 3 4 (by norm_num) (by norm_num)

/-- the hypotheses of `C92_blank`: a vendor, and nothing on the model -/
example (t : Jinja.Texts) := C92_blank t [("vendor".toList, some "v".toList)] (by simp [Dict.WF, Dict.keys]) "model" (by decide)

/-- the hypotheses of `C97_snr_bit` -/
example (sp : Spatial ℝ) (w : ℝ) (hw : 0 ≤ w) (lg : RLog w) :
    ∃ v', val (SNRMaxBit (exactLSQ ℝ)) { sampleFew with spatial := sp } = .ok (.fin (Real.logb 2 (Real.sqrt 150))) ∧
      val (Rounded.SNRMaxBit Rounding.binary64 (exactLSQ ℝ) lg) { sampleFew with spatial := sp } = .ok (.fin v') := by
  obtain ⟨hK, hR⟩ := sampleReal_KR (exactLSQ ℝ) Fit.exactLSQ_good
  rw [← sampleFew_K _ sp] at hK
  rw [← sampleFew_R _ sp] at hR
  obtain ⟨-, -, -, -, ⟨-, σ, -, hσ, hσ0, -⟩, hrel⟩ := sampleFew_accurate sp
  obtain ⟨qe, pm, em, es, dr, snr, -, -, -, -, -, hsnr, rfl, -, -, -, -, rfl, -, -, h0, hsq, -⟩ :=
    C30_consistency (exactLSQ ℝ) { sampleFew with spatial := sp } (1 / 10) (1 / 10 * (1 / 2)) σ 300 (by norm_num) (by norm_num) hσ0
      (by norm_num) hK hR hσ rfl
  have hs : snr = Real.sqrt 150 := by
    rw [← Real.sqrt_sq h0, hsq]; norm_num
  rw [hs] at hsnr
  obtain ⟨v', h1, h2, -⟩ := C97_snr_bit Rounding.binary64 lg (exactLSQ ℝ) (exactLSQ ℝ) _ _ hrel (by norm_num) _ hsnr
    (Real.sqrt_pos.2 (by norm_num)) hw
  exact ⟨v', h1, h2⟩

/-- a camera with two pixels of 8 bits and two gains -/
noncomputable def smallCamera : Cam.Camera ℝ where
  bitDepth := 8
  width := 2
  height := 1
  Ks := [1 / 10, 1 / 5]
  K := 1 / 10
  blackoffsets := [0, 2]
  blackoffset := 2
  uEsat := 20000
  exposure := 10 ^ 6
  dsnu := fun _ j => j

/-- its optics, for one wavelength -/
noncomputable def smallOptics : Cam.Optics where
  pixelArea := 25
  fNumber := 8
  temperature := 22
  temperatureRef := 30
  temperatureDoubling := 8
  darkCurrentRef := 30
  w := [525]
  qe := fun _ _ _ => 1 / 2
  prnu := fun _ _ => 1

theorem small_qe : ∑ i ∈ Finset.range smallCamera.height, ∑ j ∈ Finset.range smallCamera.width,
    ∑ k ∈ Finset.range smallOptics.w.length, smallOptics.qe i j k ≠ 0 := by
  simp [smallCamera, smallOptics]

/-- the hypotheses of `C56_saturation`, with the longest exposure left out -/
example (n : Cam.Noise ℝ) := C56_saturation smallCamera smallOptics 1000 (10 ^ 7) 2000 (10 ^ 7)
  ⟨some 2000, none, none, none, none, none, none, 5⟩ n rfl (.inl ⟨by norm_num, rfl⟩) (.inr ⟨.inl rfl, rfl⟩) (by decide) (by norm_num)
  (by norm_num [smallOptics]) (by norm_num [smallCamera]) (by norm_num [smallOptics]) (by norm_num [smallOptics]) (fun _ _ => rfl) small_qe

/-- the hypotheses of `C68_camera`: the gain is given, the black offset is not -/
example (n : Cam.Noise ℝ) := C68_camera smallCamera smallOptics 1000 (10 ^ 7) 5000 (3 / 10) 2
  ⟨none, none, some 5000, none, none, some (3 / 10), none, 5⟩ n rfl (.inl ⟨by norm_num, rfl⟩) (.inr ⟨.inl rfl, rfl⟩)
  (by simp [smallCamera]) (by simp [smallCamera])

/-- the hypotheses of `C68_photon_limits_partial`, for every outcome of the noise -/
example (n : Cam.Noise ℝ) : ∃ out, Cam.photonRun smallCamera smallOptics n 5000 5 = .ok out := by
  obtain ⟨img, hi⟩ := C49_grab smallCamera smallOptics (fun _ _ _ => 0) none none n (by norm_num [smallOptics])
    (by norm_num [smallCamera]) (by norm_num [smallOptics]) (by norm_num [smallOptics]) (by norm_num [smallOptics])
    (by norm_num [smallOptics]) (by norm_num)
  obtain ⟨h1, h2, h3⟩ := C49_grab_range _ _ _ _ _ _ _ (by decide) hi
  have hm : Img.mean ℝ img = .fin ((img.total : ℝ) / 2) := by
    rw [Img.mean, Img.size, h1, h2]
    exact Fl.fin_div (by norm_num [smallCamera])
  have h0 : (0 : ℝ) ≤ img.total := by
    have : 0 ≤ img.total := Finset.sum_nonneg fun i _ => Finset.sum_nonneg fun j _ => (h3 i j).1
    exact_mod_cast this
  obtain ⟨_, _, _, _, _, _, _, _, ⟨_, h⟩, _⟩ := C68_photon_limits_partial smallCamera smallOptics n 5000 _ img 5 (by norm_num)
    (by norm_num [smallCamera]) (by norm_num [smallOptics]) (by norm_num [smallCamera]) (by norm_num [smallOptics]) 525 rfl (by norm_num)
    small_qe hi hm (by decide) (by
      show ((2 : ℝ) ^ 8 - 1 - _) / ((5 : ℕ) : ℝ) + _ ≠ 0
      push_cast
      intro h
      linarith)
  exact ⟨_, h⟩

end Emva
