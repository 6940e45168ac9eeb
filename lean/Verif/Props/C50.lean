import Verif.Model.Radiance
import Verif.Spec.Radiance
import Mathlib.Analysis.Real.Pi.Bounds
import Mathlib.Tactic.FieldSimp
import Mathlib.Tactic.Linarith
import Mathlib.Tactic.Positivity

/-!
C50: conversions between radiance and photons.
-/
set_option autoImplicit false
namespace Emva
open Cam Spec

namespace Cam

theorem npPi_pos : 0 < npPi := by norm_num [npPi]

theorem hc_pos : 0 < hc := by norm_num [hc]

theorem fpart_pos (f : ℝ) : 0 < 1 + (2 * f) ^ 2 := by positivity

theorem photonScalar_pos {t a : ℝ} (f : ℝ) (ht : 0 < t) (ha : 0 < a) : 0 < photonScalar t a f := by
  have := npPi_pos; have := hc_pos; have := fpart_pos f
  unfold photonScalar
  positivity

theorem radianceScalar_ok {t a : ℝ} (f : ℝ) (ht : t ≠ 0) (ha : a ≠ 0) :
    radianceScalar t a f = .ok (1 / photonScalar t a f) := by
  have h1 := npPi_pos.ne'; have h2 := hc_pos.ne'; have h3 := (fpart_pos f).ne'
  unfold radianceScalar photonScalar
  simp only
  rw [if_neg (by norm_num [h1, ha, ht])]
  congr 1
  rw [one_div_div]
  congr 1
  ring

/-- multiplying by a positive number and by its inverse -/
theorem fl_mul_mul (p : Fl ℝ) {x y : ℝ} (hx : 0 < x) (h : x * y = 1) : p * .fin x * .fin y = p := by
  have hy : 0 < y := by
    by_contra hc
    have := mul_nonpos_of_nonneg_of_nonpos hx.le (not_lt.1 hc)
    linarith
  cases p with
  | nan => rfl
  | inf s =>
    show Fl.mul (Fl.mul (.inf s) (.fin x)) (.fin y) = _
    simp [Fl.mul, hx.ne', hy.ne', not_lt.2 hx.le, not_lt.2 hy.le]
  | fin v =>
    rw [Fl.fin_mul, Fl.fin_mul, mul_assoc, h, mul_one]

theorem ww_pos {ws : List ℝ} (hw : ∀ w ∈ ws, w ≠ 0) {k : ℕ} (hk : k < ws.length) :
    0 < ws.getD k 0 * 1e-9 * (ws.getD k 0 * 1e-9) := by
  have hw0 : ws.getD k 0 ≠ 0 := by
    simp only [List.getD, List.getElem?_eq_getElem hk, Option.getD_some]
    exact hw _ (List.getElem_mem hk)
  exact mul_self_pos.2 (mul_ne_zero hw0 (by norm_num))

end Cam

/-- C50: `get_photons` is the number of photons of the optical model; units: exposure in ns, area in µm²,
wavelength in nm. -/
theorem C50_formula (t a f L : ℝ) (r : Arr3) (ws : List ℝ) (i j k : ℕ) (w : ℝ) (hw : ws[k]? = some w)
    (hw0 : w ≠ 0) (hr : r i j k = .fin L) :
    getPhotons t r a ws f i j k = .fin (photonCount npPi hc L (a / 10 ^ 12) (t / 10 ^ 9) (w / 10 ^ 9) f) := by
  have hk : ws.getD k 0 = w := by simp [List.getD, hw]
  have h2 := hc_pos.ne'
  have h3 : 1 + 4 * f ^ 2 ≠ 0 := by positivity
  have h3' : 1 + (2 * f) ^ 2 = 1 + 4 * f ^ 2 := by ring
  simp only [getPhotons, photonElem, hr, hk, Fl.fin_mul, photonScalar, photonCount, h3']
  congr 1
  norm_num
  field_simp

/-- C50: from photons to radiance and back.  The values can be anything, also infinite or NaN. -/
theorem C50_photons_of_radiance (t a f : ℝ) (p : Arr3) (ws : List ℝ) (ht : 0 < t) (ha : 0 < a)
    (hw : ∀ w ∈ ws, w ≠ 0) :
    ∃ r, getRadiance t p a f ws = .ok r ∧
      ∀ i j k, k < ws.length → getPhotons t r a ws f i j k = p i j k := by
  refine ⟨_, by unfold getRadiance; rw [radianceScalar_ok f ht.ne' ha.ne']; rfl, fun i j k hk => ?_⟩
  have hp := photonScalar_pos f ht ha
  have hww := ww_pos hw hk
  simp only [getPhotons, photonElem, radianceElem]
  rw [Fl.fin_div hww.ne']
  refine fl_mul_mul _ (by positivity) ?_
  have := hww.ne'
  have := hp.ne'
  generalize photonScalar t a f = s at *
  generalize ws.getD k 0 * 1e-9 * (ws.getD k 0 * 1e-9) = q at *
  field_simp

/-- C50: from radiance to photons and back. -/
theorem C50_radiance_of_photons (t a f : ℝ) (r : Arr3) (ws : List ℝ) (ht : 0 < t) (ha : 0 < a)
    (hw : ∀ w ∈ ws, w ≠ 0) :
    ∃ r', getRadiance t (getPhotons t r a ws f) a f ws = .ok r' ∧
      ∀ i j k, k < ws.length → r' i j k = r i j k := by
  refine ⟨_, by unfold getRadiance; rw [radianceScalar_ok f ht.ne' ha.ne']; rfl, fun i j k hk => ?_⟩
  have hp := photonScalar_pos f ht ha
  have hww := ww_pos hw hk
  simp only [getPhotons, photonElem, radianceElem]
  rw [Fl.fin_div hww.ne']
  refine fl_mul_mul _ (by positivity) ?_
  have := hww.ne'
  have := hp.ne'
  generalize photonScalar t a f = s at *
  generalize ws.getD k 0 * 1e-9 * (ws.getD k 0 * 1e-9) = q at *
  field_simp

/-- C50: `get_radiance` fails exactly for a zero exposure or pixel area. -/
theorem C50_errors (t a f : ℝ) (p : Arr3) (ws : List ℝ) :
    (getRadiance t p a f ws = .error .zeroDivisionError ↔ t = 0 ∨ a = 0) ∧
    ((∃ r, getRadiance t p a f ws = .ok r) ↔ t ≠ 0 ∧ a ≠ 0) := by
  by_cases h : t = 0 ∨ a = 0
  · have e : getRadiance t p a f ws = .error .zeroDivisionError := by
      unfold getRadiance radianceScalar
      rw [if_pos (by rcases h with rfl | rfl <;> simp)]
      rfl
    rw [e]
    simp [h]
    tauto
  · have h' := not_or.1 h
    have e : ∃ r, getRadiance t p a f ws = .ok r :=
      ⟨_, by unfold getRadiance; rw [radianceScalar_ok f h'.1 h'.2]; rfl⟩
    obtain ⟨r, hr⟩ := e
    rw [hr]
    simp [h'.1, h'.2]

/-- C50: photons are proportional to the exposure and additive in the radiance. -/
theorem C50_linear (t a f : ℝ) (r r' : ℕ → ℕ → ℕ → ℝ) (ws : List ℝ) (i j k : ℕ) :
    ∃ x x', getPhotons t (fun i j k => .fin (r i j k)) a ws f i j k = .fin x ∧
      getPhotons t (fun i j k => .fin (r' i j k)) a ws f i j k = .fin x' ∧
      getPhotons t (fun i j k => .fin (r i j k + r' i j k)) a ws f i j k = .fin (x + x') ∧
      ∀ s, getPhotons (s * t) (fun i j k => .fin (r i j k)) a ws f i j k = .fin (s * x) := by
  refine ⟨_, _, rfl, rfl, ?_, fun s => ?_⟩
  · simp only [getPhotons, photonElem, Fl.fin_mul]
    congr 1
    ring
  · simp only [getPhotons, photonElem, Fl.fin_mul, photonScalar]
    congr 1
    ring

/-- C50, the constants: the `pi` of the code is π up to 10^-15, and `h * c` is that of the SI (6.62607015e-34 J s, 299792458 m/s)
up to 0.2 %. -/
theorem C50_constants : |npPi - Real.pi| ≤ 10 ^ (-15 : ℤ) ∧
    |hc - 6.62607015e-34 * 299792458| ≤ 2 / 1000 * (6.62607015e-34 * 299792458) := by
  have h1 := Real.pi_gt_d20
  have h2 := Real.pi_lt_d20
  constructor
  · rw [abs_le, npPi]
    constructor <;> norm_num at * <;> linarith
  · rw [abs_le, hc]
    constructor <;> norm_num

/-- C50, `Camera.get_photons`: photons of the pixel and wavelengths of the camera; exposure and f-number are those given, and those
of the camera if they are not given. -/
theorem C50_camera (c : Camera ℝ) (o : Optics) (r : Arr3) (t f L w : ℝ) (i j k : ℕ) (hw : o.w[k]? = some w)
    (hw0 : w ≠ 0) (hr : r i j k = .fin L) :
    let n := fun t f => Fl.fin (photonCount npPi hc L (o.pixelArea / 10 ^ 12) (t / 10 ^ 9) (w / 10 ^ 9) f)
    camPhotons c o r (some t) (some f) i j k = n t f ∧ camPhotons c o r (some t) none i j k = n t o.fNumber ∧
    camPhotons c o r none (some f) i j k = n c.exposure f ∧ camPhotons c o r none none i j k = n c.exposure o.fNumber :=
  ⟨C50_formula _ _ _ _ _ _ _ _ _ _ hw hw0 hr, C50_formula _ _ _ _ _ _ _ _ _ _ hw hw0 hr,
    C50_formula _ _ _ _ _ _ _ _ _ _ hw hw0 hr, C50_formula _ _ _ _ _ _ _ _ _ _ hw hw0 hr⟩

/-! ### a case: two wavelengths, 1 ms, 25 µm², f/8 -/

example : ∃ r, getRadiance 1000000 (fun _ _ k => .fin (100 + k)) 25 8 [400, 500] = .ok r ∧
    ∀ i j k, k < 2 → getPhotons 1000000 r 25 [400, 500] 8 i j k = .fin (100 + k) :=
  C50_photons_of_radiance _ _ _ _ _ (by norm_num) (by norm_num) (by simp)

end Emva
