import Verif.Props.C91Camera
import Verif.Props.C59Example

/-!
C91, continued: draws as in the hypotheses exist, and the numbers for a camera.
-/
set_option autoImplicit false
namespace Emva
open Cam Spec Data MeasureTheory ProbabilityTheory Finset
open scoped NNReal

/-- C91, the hypotheses can be met: there are independent draws for the images of any number of points, bright and dark. -/
theorem C91_draws_exist (M N : ℕ) (lt : ℕ → ℝ≥0) (ll : ℕ → ℕ → ℕ → ℝ≥0) (d0 : ℝ) (s2 : ℝ≥0) :
    ∃ (Ω : Type) (_ : MeasurableSpace Ω) (μ : Measure Ω) (nb nd : ℕ → ℕ → Ω → Noise ℝ),
      (∀ p, PairNoise μ M N (nb p) (lt p) (ll p) d0 s2) ∧ ∀ p, PairNoise μ M N (nd p) (lt p) (fun _ _ => 0) d0 s2 := by
  obtain ⟨Ω, _, P, X, hm, hl, hi, -⟩ := exists_hasLaw_indepFun (ι := (Bool × ℕ) × ℕ × ℕ × ℕ) (fun _ => ((ℕ × ℕ) × ℝ) × ℝ)
    (fun z => (((poissonMeasure (lt z.1.2)).prod (poissonMeasure (if z.1.1 then ll z.1.2 z.2.2.1 z.2.2.2 else 0))).prod
      (gaussianReal d0 s2)).prod uniformLaw)
  let n : Bool → ℕ → ℕ → Ω → Noise ℝ := fun b p l ω =>
    ⟨fun i j => (X ((b, p), l, i, j) ω).1.1.1, fun i j => (X ((b, p), l, i, j) ω).1.1.2, fun i j => (X ((b, p), l, i, j) ω).1.2,
      fun i j => (X ((b, p), l, i, j) ω).2⟩
  let φ : ((ℕ × ℕ) × ℝ) × ℝ → ℕ × ℕ × ℝ × ℝ := fun z => (z.1.1.1, z.1.1.2, z.1.2, z.2)
  have hφ : Measurable φ := by fun_prop
  have key : ∀ b p, PairNoise P M N (n b p) (lt p) (fun i j => if b then ll p i j else 0) d0 s2 := by
    intro b p
    refine ⟨⟨?_, ?_, ?_⟩, ?_⟩
    · intro l _ i _ j _
      exact hφ.comp (hm ((b, p), l, i, j))
    · intro l _ i _ j _
      obtain ⟨h1, hq, iq⟩ := prod_parts (A := fun ω => (X ((b, p), l, i, j) ω).1) (B := fun ω => (X ((b, p), l, i, j) ω).2) (hl ((b, p), l, i, j))
      obtain ⟨h2, hd, id'⟩ := prod_parts (A := fun ω => (X ((b, p), l, i, j) ω).1.1) (B := fun ω => (X ((b, p), l, i, j) ω).1.2) h1
      obtain ⟨h3, h4, il⟩ := prod_parts (A := fun ω => (X ((b, p), l, i, j) ω).1.1.1) (B := fun ω => (X ((b, p), l, i, j) ω).1.1.2) h2
      refine ⟨h3, h4, hd, hq, il, id', ?_⟩
      exact iq.comp (φ := fun z : (ℕ × ℕ) × ℝ => (z.1.1, z.1.2, z.2)) (by fun_prop) measurable_id
    · intro l _ i _ j _ l' _ i' _ j' _ hne
      exact (hi.indepFun fun e => hne (by simpa using e)).comp hφ hφ
    · have hg : Function.Injective fun z : Fin 2 × Fin M × Fin N => ((b, p), (z.1 : ℕ), (z.2.1 : ℕ), (z.2.2 : ℕ)) := by
        rintro ⟨a, i, j⟩ ⟨a', i', j'⟩ e
        simpa [Fin.ext_iff] using e
      exact (hi.precomp hg).comp (fun _ => φ) fun _ => hφ
  exact ⟨Ω, _, P, n true, n false, fun p => by simpa using key true p, fun p => by simpa using key false p⟩

/-- The camera of C86 with 12 million pixels. -/
noncomputable def exCam91 : Camera ℝ := { exCam86 with width := 4096, height := 3000 }

/-- The light of the points: 6700 and 9890 electrons, full well 20000. -/
noncomputable def ex91_ll (p : ℕ) : ℝ≥0 := if p = 0 then 6700 else 9890

theorem ex91_light (p : ℕ) : InRange exCam91 10 (fun _ _ => ex91_ll p) 100 25 9925 6810 701 := by
  refine ⟨by norm_num, by norm_num, fun i _ j _ => ?_, fun i _ j _ => ?_, fun i _ j _ => ?_⟩ <;>
    rcases eq_or_ne p 0 with hp | hp <;> rcases eq_or_ne i 0 with h | h <;>
    simp only [exCam91, exCam86, ex91_ll, h, hp, if_true, if_false] <;> norm_num

theorem ex91_dark : InRange exCam91 10 (fun _ _ => 0) 100 25 35 110 31 := by
  refine ⟨by norm_num, by norm_num, fun i _ j _ => ?_, fun i _ j _ => ?_, fun i _ j _ => ?_⟩
  · norm_num
  · rcases eq_or_ne i 0 with h | h <;> simp only [exCam91, exCam86, h, if_true, if_false] <;> norm_num
  · rcases eq_or_ne i 0 with h | h <;> simp only [exCam91, exCam86, h, if_true, if_false] <;> norm_num

/-- the bound of the probability, for one point -/
theorem ex91_miss : missMean (1 / 10) 9925 (3000 * 4096) (1 / 10) + missVar (1 / 10) 9925 (3000 * 4096) 1 +
    missMean (1 / 10) 35 (3000 * 4096) (1 / 10) + missVar (1 / 10) 35 (3000 * 4096) 1 ≤ 21 / 1000 := by
  unfold missMean missVar; norm_num

theorem ex91_off : offLine (1 / 10) 9925 6810 701 35 110 31 (1 / 10) 1 ≤ 7.3 ∧ offSignal (1 / 10) 9925 6810 701 35 110 31 (1 / 10) ≤ 2 := by
  have k : |(1 / 10 : ℝ)| = 1 / 10 := abs_of_pos (by norm_num)
  constructor
  · have s1 : √(9925 : ℝ) ≤ 100 := Real.sqrt_le_iff.2 (by norm_num)
    have s2 : √(35 : ℝ) ≤ 6 := Real.sqrt_le_iff.2 (by norm_num)
    have s3 : √(3 * 9925 ^ 2 + 9925 : ℝ) ≤ 17200 := Real.sqrt_le_iff.2 (by norm_num)
    have s4 : √(3 * 35 ^ 2 + 35 : ℝ) ≤ 61 := Real.sqrt_le_iff.2 (by norm_num)
    have s5 : √(8 * ((1 / 10) ^ 4 * (3 * 9925 ^ 2 + 9925) + 1) : ℝ) ≤ 490 := Real.sqrt_le_iff.2 (by norm_num)
    have s6 : √(8 * ((1 / 10) ^ 4 * (3 * 35 ^ 2 + 35) + 1) : ℝ) ≤ 4 := Real.sqrt_le_iff.2 (by norm_num)
    have c1 : clipNoise (1 / 10) 9925 6810 701 ≤ 24 / 100 := by
      unfold clipNoise; rw [k]
      calc _ ≤ (1 / 10 * 17200 / (4 * 6810) + 490 / (4 * 701) : ℝ) := by gcongr
        _ ≤ _ := by norm_num
    have c2 : clipNoise (1 / 10) 35 110 31 ≤ 5 / 100 := by
      unfold clipNoise; rw [k]
      calc _ ≤ (1 / 10 * 61 / (4 * 110) + 4 / (4 * 31) : ℝ) := by gcongr
        _ ≤ _ := by norm_num
    have p1 : 2 * clipNoise (1 / 10) 9925 6810 701 * (|1 / 10| * √9925) ≤ 4.8 := by
      rw [k]
      calc _ ≤ 2 * (24 / 100) * (1 / 10 * 100 : ℝ) := by gcongr
        _ = 4.8 := by norm_num
    have p2 : 2 * clipNoise (1 / 10) 35 110 31 * (|1 / 10| * √35) ≤ 4.8 := by
      rw [k]
      calc _ ≤ 2 * (5 / 100) * (1 / 10 * 6 : ℝ) := by gcongr
        _ ≤ 4.8 := by norm_num
    have m := max_le p1 p2
    have b : |1 / 10| * (clipMean (1 / 10) 9925 6810 701 + clipMean (1 / 10) 35 110 31) ≤ (1 / 10 : ℝ) := by
      unfold clipMean; rw [k]; norm_num
    unfold offLine
    linarith
  · unfold offSignal clipMean
    rw [k]; norm_num

/-- A data set of this camera with two points and the saturation index set to the second one: except with a probability of at most
4.2 %, the fit uses the first point and the gain found is at most 0.011 off 0.1 (up to the factor `1 - 1 / 12288000`). -/
example : ∃ (Ω : Type) (_ : MeasurableSpace Ω) (μ : Measure Ω) (r : Ω → Results.Res ℝ) (bad : Set Ω), μ.real bad ≤ 42 / 1000 ∧
    ∀ ω, ω ∉ bad → Results.val Results.indexSensitivityMax (r ω) = .ok 0 ∧
      ∃ k, Results.val (Results.K (exactLSQ ℝ)) (r ω) = .ok (.fin k) ∧ |k - 1 / 10 * (1 - 1 / (3000 * 4096))| ≤ 11 / 1000 := by
  obtain ⟨Ω, _, μ, nb, nd, hb, hd⟩ := C91_draws_exist 3000 4096 (fun _ => 10) (fun p _ _ => ex91_ll p) 100 25
  let r : Ω → Results.Res ℝ := fun ω => { sampleReal with
    temporal := { sampleReal.temporal with
      u_y := (List.range 2).map fun p => (recorded exCam91 (nb p) ω).1, s2_y := (List.range 2).map fun p => (recorded exCam91 (nb p) ω).2
      u_ydark := (List.range 2).map fun p => (recorded exCam91 (nd p) ω).1
      s2_ydark := (List.range 2).map fun p => (recorded exCam91 (nd p) ω).2 }
    index_u_ysat := some 1 }
  obtain ⟨bad, p, h⟩ := C91_gain (exactLSQ ℝ) Fit.exactLSQ_good exCam91 (by norm_num [exCam91]) (by norm_num [exCam91, exCam86])
    (by norm_num [exCam91, exCam86]) 2 2 le_rfl nb nd (fun _ => 10) (fun p _ _ => ex91_ll p) 100 25 (fun p _ => hb p) (fun p _ => hd p)
    9925 6810 701 35 110 31 (fun p _ => ex91_light p) (fun _ _ => ex91_dark) (1 / 10) 1 (by norm_num) (by norm_num) r
    (fun ω => ⟨rfl, rfl, rfl, rfl⟩)
  have hm : ∀ x : ℝ, imgMean 3000 4096 (fun _ _ => x) = x := fun x => by
    have := imgMean_lin (M := 3000) (N := 4096) (by norm_num) (fun _ _ => (0 : ℝ)) 0 x
    simpa using this
  refine ⟨Ω, _, μ, r, bad, ?_, fun ω hω => ?_⟩
  · refine p.trans ?_
    have := ex91_miss
    simp only [exCam91, exCam86] at *
    norm_num at *
    linarith
  · obtain ⟨o1, o2⟩ := ex91_off
    obtain ⟨pts, g⟩ := h ω hω
    have hK : exCam91.K = 1 / 10 := rfl
    have hx : ∀ x : ℝ, exCam91.K * imgMean exCam91.height exCam91.width (fun _ _ => x) = x / 10 := fun x => by
      show (1 / 10 : ℝ) * imgMean 3000 4096 _ = _
      rw [hm]; ring
    obtain ⟨y0, s0, y0', s0', e0, e0', -, b0⟩ := pts 0 (by norm_num)
    obtain ⟨y1, s1, y1', s1', e1, e1', -, b1⟩ := pts 1 (by norm_num)
    have l0 : ((ex91_ll 0 : ℝ≥0) : ℝ) = 6700 := by norm_num [ex91_ll]
    have l1 : ((ex91_ll 1 : ℝ≥0) : ℝ) = 9890 := by norm_num [ex91_ll]
    rw [hx, hK, l0] at b0
    rw [hx, hK, l1] at b1
    replace b0 := abs_le.1 (b0.trans o2)
    replace b1 := abs_le.1 (b1.trans o2)
    have hj : Results.val Results.indexSensitivityMax (r ω) = .ok 0 := by
      have d1 : (r ω).temporal.u_y = [y0, y1].map .fin := by simp [r, List.range_succ, e0, e1]
      have d2 : (r ω).temporal.u_ydark = [y0', y1'].map .fin := by simp [r, List.range_succ, e0', e1']
      have := ((C25_sensitivity_max (r ω) _ _ d1 d2 rfl 1 rfl).1 (y1 - y1') (by simp [AtIndex, diff])).1 0
      refine this.2 ⟨⟨y0 - y0', by simp [diff], by linarith [b0.2, b1.1]⟩, fun i y hi hy => ?_⟩
      have hi1 : i = 1 := by
        have := (List.getElem?_eq_some_iff.1 hy).1
        simp [diff] at this
        omega
      subst hi1
      have : y = y1 - y1' := by simpa [diff] using hy.symm
      rw [this]
      linarith [b1.1]
    refine ⟨hj, ?_⟩
    obtain ⟨k, ek, hk⟩ := g 0 (by norm_num) hj 0 le_rfl (by rw [hx, hK, l0]; linarith)
    refine ⟨k, ek, ?_⟩
    rw [hx, hK, l0] at hk
    refine (show |k - 1 / 10 * (1 - 1 / (3000 * 4096))| ≤ _ by exact_mod_cast hk).trans ?_
    rw [div_le_iff₀ (by linarith)]
    norm_num
    linarith

end Emva
