import Verif.Spec.Camera
import Verif.Props.C48
import Mathlib.Algebra.Order.Floor.Ring
import Mathlib.Tactic.Positivity

/-!
C49: grabbed images are valid for the bit depth, for every outcome of the random draws.
-/
set_option autoImplicit false
set_option linter.unusedSectionVars false
namespace Emva
open Cam Spec

namespace Cam
variable {F : Type} [Field F] [LinearOrder F] [IsStrictOrderedRing F] [FloorRing F]

theorem rint_err (x : F) : |(rint x : F) - x| ≤ 1 / 2 := by
  have h0 := Int.floor_le x
  have h1 := Int.lt_floor_add_one x
  unfold rint
  simp only
  rw [abs_le]
  split_ifs with ha hb hc
  · constructor <;> linarith
  · push_cast; constructor <;> linarith
  · constructor <;> linarith
  · push_cast; constructor <;> linarith

theorem rint_mono {x y : F} (h : x ≤ y) : rint x ≤ rint y := by
  rcases h.eq_or_lt with rfl | h
  · exact le_rfl
  · by_contra hc
    have h1 : rint y + 1 ≤ rint x := by omega
    have h2 : ((rint y : ℤ) : F) + 1 ≤ (rint x : F) := by exact_mod_cast h1
    have hx := abs_le.1 (rint_err x)
    have hy := abs_le.1 (rint_err y)
    linarith [hx.1, hx.2, hy.1, hy.2]

theorem rint_int (k : ℤ) : rint (k : F) = k := by
  unfold rint
  simp only [Int.floor_intCast, sub_self]
  rw [if_pos (by norm_num)]

theorem clip_mono {α : Type} [LinearOrder α] {x y lo hi : α} (h : x ≤ y) : clip x lo hi ≤ clip y lo hi :=
  min_le_min_right _ (max_le_max_right _ h)

theorem clip_mem {α : Type} [LinearOrder α] {x lo hi : α} (h : lo ≤ hi) : lo ≤ clip x lo hi ∧ clip x lo hi ≤ hi :=
  ⟨le_min (le_max_right _ _) h, min_le_right _ _⟩

theorem clip_id {α : Type} [LinearOrder α] {x lo hi : α} (h1 : lo ≤ x) (h2 : x ≤ hi) : clip x lo hi = x := by
  unfold clip
  rw [max_eq_left h1, min_eq_left h2]

theorem imgMax_nonneg (b : ℕ) : 0 ≤ imgMax b := by
  have : (1 : ℤ) ≤ 2 ^ b := one_le_pow₀ (by norm_num)
  unfold imgMax
  omega

theorem typeBits_ge {b : ℕ} (h : b ≤ 64) : b ≤ typeBits b := by
  unfold typeBits
  split_ifs <;> omega

end Cam

section
variable {F : Type} [Field F] [LinearOrder F] [IsStrictOrderedRing F] [FloorRing F]

/-- C49: for every outcome of the draws, a grabbed image has the shape of the camera, and every pixel is
in `[0, 2^bit_depth - 1]`; the conversion to the image type changes no value. -/
theorem C49_range (c : Camera F) (n : Noise F) (hb : c.bitDepth ≤ 64) :
    (grabImg c n).h = c.height ∧ (grabImg c n).w = c.width ∧
    ∀ i j, 0 ≤ (grabImg c n).px i j ∧ (grabImg c n).px i j ≤ 2 ^ c.bitDepth - 1 ∧
      (grabImg c n).px i j = greyValue c n i j := by
  refine ⟨rfl, rfl, fun i j => ?_⟩
  have hg : 0 ≤ greyValue c n i j ∧ greyValue c n i j ≤ imgMax c.bitDepth := clip_mem (imgMax_nonneg _)
  have hpow : (2 : ℤ) ^ c.bitDepth ≤ 2 ^ typeBits c.bitDepth := pow_le_pow_right₀ (by norm_num) (typeBits_ge hb)
  have e : (grabImg c n).px i j = greyValue c n i j := by
    show greyValue c n i j % 2 ^ typeBits c.bitDepth = _
    refine Int.emod_eq_of_lt hg.1 ?_
    have := hg.2
    unfold imgMax at this
    omega
  rw [e]
  exact ⟨hg.1, hg.2, rfl⟩

/-- C49: with the same quantisation noise, more electrons never give a darker pixel. -/
theorem C49_monotone_electrons (c c' : Camera F) (n n' : Noise F) (i j : ℕ) (hb : c.bitDepth ≤ 64) (hK : 0 ≤ c.K)
    (hc : c' = { c with dsnu := c'.dsnu }) (hq : n.quant i j = n'.quant i j)
    (he : (n.therm i j : F) + n.light i j + (c.dsnu i j + n.dark i j) ≤
      (n'.therm i j : F) + n'.light i j + (c'.dsnu i j + n'.dark i j)) :
    (grabImg c n).px i j ≤ (grabImg c' n').px i j := by
  have hb' : c'.bitDepth ≤ 64 := by rw [hc]; exact hb
  rw [((C49_range c n hb).2.2 i j).2.2, ((C49_range c' n' hb').2.2 i j).2.2]
  have h1 : c'.K = c.K := by rw [hc]
  have h2 : c'.blackoffset = c.blackoffset := by rw [hc]
  have h3 : c'.bitDepth = c.bitDepth := by rw [hc]
  have h4 : c'.uEsat = c.uEsat := by rw [hc]
  unfold greyValue
  rw [h1, h2, h3, hq]
  refine clip_mono (rint_mono ?_)
  have : electrons c n i j ≤ electrons c' n' i j := by
    unfold electrons
    rw [h4]
    exact clip_mono he
  have := mul_le_mul_of_nonneg_left this hK
  linarith

/-- C49: with the same noise a higher gain or black offset never gives a darker pixel. -/
theorem C49_monotone_gain (c : Camera F) (n : Noise F) (i j : ℕ) (hb : c.bitDepth ≤ 64) (hs : 0 ≤ c.uEsat) (k b : F)
    (hk : c.K ≤ k) (hbo : c.blackoffset ≤ b) :
    (grabImg c n).px i j ≤ (grabImg { c with K := k, blackoffset := b } n).px i j := by
  rw [((C49_range c n hb).2.2 i j).2.2, ((C49_range { c with K := k, blackoffset := b } n hb).2.2 i j).2.2]
  refine clip_mono (rint_mono ?_)
  have he : electrons { c with K := k, blackoffset := b } n i j = electrons c n i j := rfl
  rw [he]
  have h0 : 0 ≤ electrons c n i j := (clip_mem hs).1
  have := mul_le_mul_of_nonneg_right hk h0
  show c.K * _ + n.quant i j + c.blackoffset ≤ k * _ + n.quant i j + b
  linarith

/-- C49: a pixel differs from gain × electrons + black offset by at most one grey value, unless it is
clipped at one of the ends of the range. -/
theorem C49_accuracy (c : Camera F) (n : Noise F) (i j : ℕ) (hb : c.bitDepth ≤ 64) (hq : |n.quant i j| ≤ 1 / 2) :
    let v := c.K * electrons c n i j + c.blackoffset
    (1 ≤ v → v + 1 ≤ (2 : F) ^ c.bitDepth - 1 → |((grabImg c n).px i j : F) - v| ≤ 1) ∧
    ((2 : F) ^ c.bitDepth - 1 + 1 ≤ v → (grabImg c n).px i j = 2 ^ c.bitDepth - 1) ∧
    (v ≤ -1 → (grabImg c n).px i j = 0) := by
  intro v
  rw [((C49_range c n hb).2.2 i j).2.2]
  have hcast : ((imgMax c.bitDepth : ℤ) : F) = (2 : F) ^ c.bitDepth - 1 := by unfold imgMax; push_cast; rfl
  have hnn := imgMax_nonneg c.bitDepth
  have hg : greyValue c n i j = clip (rint (v + n.quant i j)) 0 (imgMax c.bitDepth) := by
    unfold greyValue
    congr 2
    show _ = c.K * electrons c n i j + c.blackoffset + n.quant i j
    ring
  rw [hg]
  have herr := abs_le.1 (rint_err (v + n.quant i j))
  have hq' := abs_le.1 hq
  refine ⟨fun h1 h2 => ?_, fun h => ?_, fun h => ?_⟩
  · rw [clip_id]
    · rw [abs_le]; constructor <;> linarith [herr.1, herr.2, hq'.1, hq'.2]
    · have : (0 : F) ≤ (rint (v + n.quant i j) : F) := by linarith [herr.1, herr.2, hq'.1, hq'.2]
      exact_mod_cast this
    · have : (rint (v + n.quant i j) : F) ≤ (imgMax c.bitDepth : F) := by
        rw [hcast]; linarith [herr.1, herr.2, hq'.1, hq'.2]
      exact_mod_cast this
  · have h1 : imgMax c.bitDepth ≤ rint (v + n.quant i j) := by
      have : ((imgMax c.bitDepth : ℤ) : F) ≤ (rint (v + n.quant i j) : F) := by
        rw [hcast]; linarith [herr.1, herr.2, hq'.1, hq'.2]
      exact_mod_cast this
    unfold clip
    rw [max_eq_left (by omega), min_eq_right h1]
    rfl
  · have h1 : rint (v + n.quant i j) ≤ 0 := by
      have : (rint (v + n.quant i j) : F) ≤ ((0 : ℤ) : F) := by
        push_cast; linarith [herr.1, herr.2, hq'.1, hq'.2]
      exact_mod_cast this
    unfold clip
    rw [max_eq_right h1, min_eq_left hnn]

end

/-! ### a case -/

/-- 100 electrons and some noise -/
def sampleNoise : Noise ℚ where
  therm := fun _ _ => 40
  light := fun _ _ => 60
  dark := fun _ _ => 1 / 3
  quant := fun _ _ => -1 / 4

/-- gain 2, offset 3: 2·100⅓ − ¼ + 3 = 203.41… -/
example : (grabImg { sampleCamera with K := 2, blackoffset := 3 } sampleNoise).px 1 1 = 203 := by decide +kernel

example : (grabImg { sampleCamera with K := 4 } sampleNoise).px 0 1 = 255 := by decide +kernel

end Emva
