import Verif.Props.C85

/-! C85: a concrete dataset. -/
set_option autoImplicit false
namespace Emva
open Py Loader Spec Data Emva.Parser Gen Pipeline Disk

/-- light levels are numbers; the image `n` at level `r` has the grey values `10 * r` and `10 * r + n` -/
def setup85 : Setup ℕ where
  dark := fun r => r == 0
  photons := fun e r => r * e / 1000
  grab := fun n _ r => ⟨1, 2, fun _ j => (10 * r + n * j : ℕ) % 256⟩

def cfg85 : Cfg := ⟨"4.0".toList, "png".toList, 3, 8, 2, 1, "out".toList⟩

def temporal85 : List (ℚ × List ℕ) := [(2000, [3, 0]), (1000, [5, 0])]
def spatial85 : List (ℚ × List ℕ) := [(1000, [5, 0])]

/-- the dataset meets the hypotheses of `C85_evaluated` -/
theorem hyps85 : GenOK cfg85 (seenPts setup85 temporal85) (seenPts setup85 spatial85) ∧
    KeysDistinct (seenPts setup85 temporal85) ∧ KeysDistinct (seenPts setup85 spatial85) ∧
    (∀ n e r, (setup85.grab n e r).h = 1 ∧ (setup85.grab n e r).w = 2 ∧ Spec.Fits 8 (setup85.grab n e r)) := by
  refine ⟨⟨by decide, by decide, ?_, .inr (.inl (by decide))⟩, ?_, ?_, ?_⟩
  · intro q hq
    rw [flat_seenPts, flat_seenPts] at hq
    simp [flatPoints, temporal85, spatial85, radiance, setup85] at hq
    rcases hq with rfl | rfl | rfl | rfl | rfl | rfl <;> norm_num <;> simp
  · unfold KeysDistinct; decide +kernel
  · unfold KeysDistinct; decide +kernel
  · intro n e r
    refine ⟨rfl, rfl, fun i j => ?_⟩
    simp only [setup85]
    omega

/-- the images of the temporal points: the exposure time 1000 was measured last -/
example : (shots setup85.grab 0 2 temporal85).map (fun t => (t.1, t.2.1, t.2.2.map fun g => (g.px 0 0, g.px 0 1))) =
    [(2000, 3, [(30, 30), (30, 31)]), (2000, 0, [(0, 2), (0, 3)]), (1000, 5, [(50, 54), (50, 55)]),
      (1000, 0, [(0, 6), (0, 7)])] := by
  decide +kernel

/-- the evaluation of the dataset: sorted by exposure time, each point with the values of its own images -/
example : ∃ r, emva1288 i64 decFloat decInt (fload cfg85.imageFormat (run setup85 cfg85 500 temporal85 spatial85).files) id
      (descriptorPath cfg85) (run setup85 cfg85 500 temporal85 spatial85).st.text = .ok r ∧
    r.temporal.u_p = [5, 6] ∧ r.temporal.u_y = [.fin (209 / 4), .fin (121 / 4)] ∧
    r.spatial.u_p = 5 := by
  obtain ⟨h1, h2, h3, h4⟩ := hyps85
  obtain ⟨r, hr, ⟨ks, hp, hs, u1, u2, -⟩, -, s2, -⟩ := C85_evaluated setup85 cfg85 500 temporal85 spatial85 h1 (by decide) h2 h3
    (by
      intro t ht
      simp [temporal85] at ht
      rcases ht with rfl | rfl <;> simp [setup85]) 1000 5 0 rfl rfl rfl (by decide) (by decide) .png (by decide) (by decide)
    h4 (by decide) id fun l => .refl _
  let A : ℚ × ℕ × List Img := (2000, 3, (List.range 2).map fun l => Spec.shown .png 8 (setup85.grab (0 + 2 * 0 + l) 2000 3))
  let B : ℚ × ℕ × List Img := (1000, 5, (List.range 2).map fun l => Spec.shown .png 8 (setup85.grab (0 + 2 * 2 + l) 1000 5))
  have hks : ks = [B, A] := by
    have hp' : ks.Perm [B, A] := hp.trans (List.Perm.swap B A [])
    refine hp'.eq_of_pairwise ?_ hs ?_
    · intro a b _ _ hab hba
      rcases hab with h1 | ⟨h1, h1'⟩ <;> rcases hba with h2 | ⟨h2, h2'⟩
      · exact absurd (h1.trans h2) (lt_irrefl _)
      · exact absurd (h2 ▸ h1) (lt_irrefl _)
      · exact absurd (h1 ▸ h2) (lt_irrefl _)
      · exact absurd (h1'.trans h2') (lt_irrefl _)
    · refine List.Pairwise.cons ?_ (List.pairwise_singleton _ _)
      intro x hx
      rw [List.mem_singleton.1 hx]
      left
      show roundTo 1 1000 < roundTo 1 2000
      decide +kernel
  subst hks
  refine ⟨r, hr, ?_, ?_, ?_⟩
  · rw [u1]
    decide +kernel
  · rw [u2]
    decide +kernel
  · rw [s2]
    decide +kernel

end Emva
