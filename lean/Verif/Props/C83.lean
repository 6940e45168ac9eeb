import Verif.Model.Rounded
import Verif.Props.C01_C06

/-!
C83: the error of the temporal data by rounding.

The means and variances of an evaluation are computed in float64. The mean of a pair of images is the exact mean, rounded
once. The error of the temporal variance is a few units in the last place of the mean square difference of the images, plus
a contribution of the drift between them, for every rounding to `u` and every order of the additions.
-/
set_option autoImplicit false
namespace Emva
open Finset Rounded
variable {u : ℝ} (R : Rounding u) (S : RSum R)

theorem pixelsOf_map {α β : Type*} (h w : ℕ) (f : ℕ → ℕ → α) (g : α → β) :
    (pixelsOf h w f).map g = pixelsOf h w fun i j => g (f i j) := by
  simp [pixelsOf, List.map_flatMap, Function.comp_def]

theorem pixelsOf_sum {M : Type*} [AddCommMonoid M] (h w : ℕ) (f : ℕ → ℕ → M) :
    (pixelsOf h w f).sum = ∑ i ∈ range h, ∑ j ∈ range w, f i j := by
  have key : ∀ (n : ℕ) (g : ℕ → M), ((List.range n).map g).sum = ∑ i ∈ range n, g i := fun n g => by
    induction n with
    | zero => simp
    | succ n ih => rw [List.range_succ, List.map_append, List.sum_append, ih, Finset.sum_range_succ]; simp
  have key2 : ∀ l : List ℕ, (l.flatMap fun i => (List.range w).map fun j => f i j).sum
      = (l.map fun i => ∑ j ∈ range w, f i j).sum := fun l => by
    induction l with
    | nil => rfl
    | cons i l ih => rw [List.flatMap_cons, List.sum_append, ih, List.map_cons, List.sum_cons, key]
  rw [pixelsOf, key2, key]

/-- the mean of an integer image is the exact mean, rounded once -/
theorem mean_eq (h w : ℕ) (B : ℤ) (a : Img) (ah : a.h = h) (aw : a.w = w)
    (ra : ∀ r < h, ∀ c < w, 0 ≤ a.px r c ∧ a.px r c ≤ B) (hp : 0 < h * w) (hn : (h : ℤ) * w ≤ 2 ^ 53)
    (hB : (h : ℤ) * w * B ≤ 2 ^ 53) :
    Rounded.mean R S a = R.rnd (Spec.imgMean h w fun i j => (a.px i j : ℝ)) := by
  subst ah aw
  have tot : 0 ≤ ∑ i ∈ range a.h, ∑ j ∈ range a.w, a.px i j ∧ (∑ i ∈ range a.h, ∑ j ∈ range a.w, |a.px i j|) ≤ 2 ^ 53 := by
    constructor
    · exact sum_nonneg fun i hi => sum_nonneg fun j hj => (ra i (mem_range.1 hi) j (mem_range.1 hj)).1
    · refine le_trans (b := ∑ _i ∈ range a.h, ∑ _j ∈ range a.w, B) ?_ ?_
      · refine sum_le_sum fun i hi => sum_le_sum fun j hj => ?_
        obtain ⟨h1, h2⟩ := ra i (mem_range.1 hi) j (mem_range.1 hj)
        rwa [abs_of_nonneg h1]
      · simp only [sum_const, card_range, nsmul_eq_mul]
        rw [← mul_assoc]
        exact hB
  have B0 : ∀ i < a.h, ∀ j < a.w, |a.px i j| ≤ 2 ^ 53 := by
    intro i hi j hj
    obtain ⟨h1, h2⟩ := ra i hi j hj
    rw [abs_of_nonneg h1]
    have hpz : (1 : ℤ) ≤ (a.h : ℤ) * a.w := by exact_mod_cast hp
    have : 0 ≤ B := h1.trans h2
    nlinarith
  -- the pixels are exact
  have e1 : (pixelsOf a.h a.w a.px).map (fun n : ℤ => R.rnd n)
      = (pixelsOf a.h a.w a.px).map fun n : ℤ => (n : ℝ) := by
    refine List.map_congr_left fun n hn => ?_
    simp only [pixelsOf, List.mem_flatMap, List.mem_range, List.mem_map] at hn
    obtain ⟨i, hi, j, hj, rfl⟩ := hn
    exact R.int _ (B0 i hi j hj)
  -- their sum is exact
  have e2 : S.sum ((pixelsOf a.h a.w a.px).map fun n : ℤ => (n : ℝ)) = ((pixelsOf a.h a.w a.px).sum : ℤ) := by
    refine (S.spec _).exact _ rfl ?_
    rw [pixelsOf_map, pixelsOf_sum]
    exact tot.2
  have e3 : R.rnd (a.size : ℝ) = a.size := by
    refine R.nat _ ?_
    have : ((a.size : ℕ) : ℤ) ≤ 2 ^ 53 := by rw [Img.size]; push_cast; exact hn
    exact_mod_cast this
  rw [Rounded.mean, e1, e2, e3, pixelsOf_sum, Spec.imgMean]
  congr 1
  rw [Img.size]
  push_cast
  rfl

/-- the mean square difference of two images, divided by 2: the temporal variance without correction -/
noncomputable def Spec.halfMeanSq (h w : ℕ) (f : ℕ → ℕ → ℝ) : ℝ := (∑ i ∈ range h, ∑ j ∈ range w, f i j ^ 2) / (2 * (h * w))

/-- the arithmetic of the error of the variance -/
theorem variance_error {u V D μ var' D' q s : ℝ} (hu : 0 ≤ u) (hu1 : u ≤ 1 / 100) (hV : 0 ≤ V) (hμ : 0 ≤ μ)
    (hs2 : D ^ 2 / 2 ≤ V) (h1 : |var' - V| ≤ (2 * u + u ^ 2) * V) (h2 : |D' - D| ≤ u * |D| + u * (1 + u) * μ)
    (h3 : |q - D' ^ 2 / 2| ≤ (2 * u + u ^ 2) * (D' ^ 2 / 2)) (h4 : |s - (var' - q)| ≤ u * |var' - q|) :
    |s - (V - D ^ 2 / 2)| ≤ 4 * u * V + 6 * u * (D ^ 2 / 2) + 2 * u * (μ * |D|) + 2 * u ^ 2 * μ ^ 2 := by
  set E := D ^ 2 / 2 with hE
  set E' := D' ^ 2 / 2 with hE'
  set δ := |D' - D| with hδ
  set A := |D| with hA
  have hE0 : 0 ≤ E := by positivity
  have hE0' : 0 ≤ E' := by positivity
  have hA0 : 0 ≤ A := abs_nonneg D
  have hA2 : A ^ 2 = 2 * E := by rw [hA, sq_abs, hE]; ring
  have hδ0 : 0 ≤ δ := abs_nonneg _
  have u2 : u ^ 2 ≤ u / 100 := by nlinarith
  -- the square of the drift
  have q1 : |E' - E| ≤ A * δ + δ ^ 2 / 2 := by
    have e : E' - E = D * (D' - D) + (D' - D) ^ 2 / 2 := by rw [hE, hE']; ring
    rw [e]
    refine (abs_add_le _ _).trans ?_
    rw [abs_mul, abs_of_nonneg (by positivity : 0 ≤ (D' - D) ^ 2 / 2), ← sq_abs (D' - D)]
  set μA := μ * A with hμA
  have hμA0 : 0 ≤ μA := by positivity
  set M2 := u * μ ^ 2 with hM2
  have hM20 : 0 ≤ M2 := by positivity
  have b : (1 + u) * μ ≤ 101 / 100 * μ := by nlinarith
  have δb : δ ≤ u * (A + 101 / 100 * μ) := by
    have : u * (1 + u) * μ ≤ u * (101 / 100 * μ) := by rw [mul_assoc]; exact mul_le_mul_of_nonneg_left b hu
    linarith
  have q2 : A * δ ≤ 2 * (u * E) + 101 / 100 * (u * μA) := by
    have := mul_le_mul_of_nonneg_left δb hA0
    have e : A * (u * (A + 101 / 100 * μ)) = u * A ^ 2 + 101 / 100 * (u * μA) := by rw [hμA]; ring
    rw [e, hA2] at this
    linarith
  have q3 : δ ^ 2 ≤ u * (u * (4 * E) + 2 * (101 / 100) ^ 2 * M2) := by
    have h5 : δ ^ 2 ≤ (u * (A + 101 / 100 * μ)) ^ 2 := pow_le_pow_left₀ hδ0 δb 2
    have h6 : (A + 101 / 100 * μ) ^ 2 ≤ 2 * A ^ 2 + 2 * (101 / 100 * μ) ^ 2 := by nlinarith [sq_nonneg (A - 101 / 100 * μ)]
    have h7 : (u * (A + 101 / 100 * μ)) ^ 2 ≤ u ^ 2 * (2 * A ^ 2 + 2 * (101 / 100 * μ) ^ 2) := by
      rw [mul_pow]; exact mul_le_mul_of_nonneg_left h6 (sq_nonneg u)
    refine h5.trans (h7.trans (le_of_eq ?_))
    rw [hA2, hM2]
    ring
  have uE : 0 ≤ u * E := mul_nonneg hu hE0
  have uV : 0 ≤ u * V := mul_nonneg hu hV
  have uA : 0 ≤ u * μA := mul_nonneg hu hμA0
  have uM : 0 ≤ u * M2 := mul_nonneg hu hM20
  have uuE : u * (u * E) ≤ u * E / 100 := by nlinarith
  have dE : |E' - E| ≤ 203 / 100 * (u * E) + 101 / 100 * (u * μA) + 103 / 100 * (u * M2) := by
    have : u * (u * (4 * E) + 2 * (101 / 100) ^ 2 * M2) = 4 * (u * (u * E)) + 2 * (101 / 100) ^ 2 * (u * M2) := by ring
    rw [this] at q3
    linarith
  have c : 2 * u + u ^ 2 ≤ 201 / 100 * u := by linarith
  have dV : |var' - V| ≤ 201 / 100 * (u * V) :=
    h1.trans (by have := mul_le_mul_of_nonneg_right c hV; linarith)
  have E'b : E' ≤ E + |E' - E| := by have := le_abs_self (E' - E); linarith
  have dq : |q - E'| ≤ 201 / 100 * (u * E) + 3 / 100 * |E' - E| := by
    refine h3.trans ?_
    have h5 := mul_le_mul c E'b hE0' (by positivity)
    have h6 : u * |E' - E| ≤ |E' - E| / 100 := by
      have := mul_le_mul_of_nonneg_right hu1 (abs_nonneg (E' - E)); linarith
    have h7 := abs_nonneg (E' - E)
    linarith
  -- all together
  have t1 : |var' - q - (V - E)| ≤ |var' - V| + |q - E'| + |E' - E| := by
    have e : var' - q - (V - E) = (var' - V) + ((E' - q) + (E - E')) := by ring
    rw [e]
    refine (abs_add_le _ _).trans ?_
    have := abs_add_le (E' - q) (E - E')
    rw [abs_sub_comm E' q, abs_sub_comm E E'] at this
    linarith
  have t2 : |var' - q| ≤ |var' - q - (V - E)| + (V - E) := by
    have := abs_add_le (var' - q - (V - E)) (V - E)
    rw [sub_add_cancel, abs_of_nonneg (by linarith : 0 ≤ V - E)] at this
    exact this
  have t3 : |s - (V - E)| ≤ |s - (var' - q)| + |var' - q - (V - E)| := by
    have := abs_add_le (s - (var' - q)) (var' - q - (V - E))
    rwa [sub_add_sub_cancel] at this
  have t4 : u * |var' - q| ≤ |var' - q - (V - E)| / 100 + u * (V - E) := by
    have h5 := mul_le_mul_of_nonneg_left t2 hu
    have h6 := mul_le_mul_of_nonneg_right hu1 (abs_nonneg (var' - q - (V - E)))
    linarith
  have e : 4 * u * V + 6 * u * E + 2 * u * μA + 2 * u ^ 2 * μ ^ 2
      = 4 * (u * V) + 6 * (u * E) + 2 * (u * μA) + 2 * (u * M2) := by rw [hM2]; ring
  rw [e]
  have e' : u * (V - E) = u * V - u * E := by ring
  linarith

/-- the operations of a pair of images that round -/
theorem series_eq (h w : ℕ) (B : ℤ) (a b : Img) (ok : PairOK h w B a b)
    (hn : (h : ℤ) * w ≤ 2 ^ 51) (hB : (h : ℤ) * w * B ≤ 2 ^ 52) :
    let ma := Spec.imgMean h w fun i j => (a.px i j : ℝ)
    let mb := Spec.imgMean h w fun i j => (b.px i j : ℝ)
    let D' := R.rnd (R.rnd mb - R.rnd ma)
    Rounded.seriesPoint R (h * w) (Rounded.entry R S [a, b])
      = (R.rnd ((ma + mb) / 2),
         R.rnd (R.rnd (R.rnd ((∑ i ∈ range h, ∑ j ∈ range w, 2 * (a.px i j - b.px i j) ^ 2 : ℤ) : ℝ) / (4 * ((h * w : ℕ) : ℝ)))
          - R.rnd (R.rnd (D' * D') / 2))) := by
  intro ma mb D'
  obtain ⟨hsum, hpv, -⟩ := pair_entry ℚ h w B a b ok
  obtain ⟨hp, ah, aw, bh, bw, ra, rb, env⟩ := ok
  have hneR : ((h : ℝ) * w) ≠ 0 := by exact_mod_cast hp.ne'
  have hpR : 0 < ((h : ℝ) * w) := by exact_mod_cast hp
  obtain ⟨hh0, hw0⟩ := mul_ne_zero_iff.1 hneR
  have hnN : h * w ≤ 2 ^ 51 := by exact_mod_cast hn
  -- exact numbers
  have r1 : R.rnd ((h * w : ℕ) : ℝ) = (h * w : ℕ) := R.nat _ (by omega)
  have r2 : R.rnd (2 * ((h * w : ℕ) : ℝ)) = 2 * ((h * w : ℕ) : ℝ) := by
    have := R.nat (2 * (h * w)) (by omega)
    push_cast at this ⊢
    exact this
  have r4 : R.rnd (4 * ((h * w : ℕ) : ℝ)) = 4 * ((h * w : ℕ) : ℝ) := by
    have := R.nat (4 * (h * w)) (by omega)
    push_cast at this ⊢
    exact this
  set Sm := ∑ i ∈ range h, ∑ j ∈ range w, (a.px i j + b.px i j) with hSm
  set P := ∑ i ∈ range h, ∑ j ∈ range w, 2 * (a.px i j - b.px i j) ^ 2 with hP
  have Sm0 : 0 ≤ Sm := sum_nonneg fun i hi => sum_nonneg fun j hj => by
    have := ra i (mem_range.1 hi) j (mem_range.1 hj)
    have := rb i (mem_range.1 hi) j (mem_range.1 hj)
    omega
  have Smle : Sm ≤ 2 ^ 53 := by
    refine le_trans (b := ∑ _i ∈ range h, ∑ _j ∈ range w, 2 * B) ?_ ?_
    · refine sum_le_sum fun i hi => sum_le_sum fun j hj => ?_
      have := ra i (mem_range.1 hi) j (mem_range.1 hj)
      have := rb i (mem_range.1 hi) j (mem_range.1 hj)
      omega
    · simp only [sum_const, card_range, nsmul_eq_mul]
      rw [← mul_assoc]
      linarith
  have rS : R.rnd (Sm : ℝ) = Sm := R.int _ (by rw [abs_of_nonneg Sm0]; exact Smle)
  -- int64 pixels
  have i64px : ∀ (x : Img), (∀ r < h, ∀ c < w, 0 ≤ x.px r c ∧ x.px r c ≤ B) →
      ∀ r < h, ∀ c < w, i64 (x.px r c) = x.px r c := by
    intro x hx r hr c hc
    obtain ⟨h1, h2⟩ := hx r hr c hc
    have hpz : (1 : ℤ) ≤ (h : ℤ) * w := by exact_mod_cast hp
    have h3 : x.px r c ≤ 2 ^ 52 := by
      have : 0 ≤ B := h1.trans h2
      nlinarith
    unfold i64
    rw [Int.bmod_eq_of_le] <;> omega
  have mean64 : ∀ (x : Img), x.h = h → x.w = w → (∀ r < h, ∀ c < w, 0 ≤ x.px r c ∧ x.px r c ≤ B) →
      Rounded.mean R S { x with px := fun r c => i64 (x.px r c) } = R.rnd (Spec.imgMean h w fun i j => (x.px i j : ℝ)) := by
    intro x xh xw hx
    have hc := i64px x hx
    have := mean_eq R S h w B { x with px := fun r c => i64 (x.px r c) } xh xw
      (fun r hr c hcc => by simp only [hc r hr c hcc]; exact hx r hr c hcc) hp (by linarith) (by linarith)
    rw [this]
    congr 1
    unfold Spec.imgMean
    congr 1
    refine sum_congr rfl fun i hi => sum_congr rfl fun j hj => ?_
    simp only [hc i (mem_range.1 hi) j (mem_range.1 hj)]
  have hma := mean64 a ah aw ra
  have hmb := mean64 b bh bw rb
  have hdm : (Rounded.entry R S [a, b]).dmean = R.rnd (R.rnd mb - R.rnd ma) := by
    simp only [Rounded.entry, Rounded.dmeanLoop]
    rw [hma, hmb, zero_add, R.idem]
  have hes : (Rounded.entry R S [a, b]).sum = Sm := hsum
  have hep : (Rounded.entry R S [a, b]).pvar = P := hpv
  simp only [Rounded.seriesPoint]
  rw [hdm, hep, hes, r1, r2, r4, rS]
  refine Prod.ext ?_ rfl
  show R.rnd _ = R.rnd _
  congr 1
  simp only [ma, mb, Spec.imgMean, hSm]
  push_cast
  simp only [sum_add_distrib]
  field_simp

/-- C83. The mean of a pair of images is the exact mean, rounded once. The temporal variance differs from the exact one by
at most `4 u V + 6 u D²/2 + 2 u μ |D| + 2 u² μ²`, where `V` is half of the mean square difference, `D` the drift (the
difference of the means) and `μ` the sum of the means of the two images. -/
theorem C83_temporal (hu1 : u ≤ 1 / 100) (h w : ℕ) (B : ℤ) (a b : Img) (ok : PairOK h w B a b)
    (hn : (h : ℤ) * w ≤ 2 ^ 51) (hB : (h : ℤ) * w * B ≤ 2 ^ 52) :
    let ma := Spec.imgMean h w fun i j => (a.px i j : ℝ)
    let mb := Spec.imgMean h w fun i j => (b.px i j : ℝ)
    let V := Spec.halfMeanSq h w fun i j => (b.px i j : ℝ) - a.px i j
    let D := mb - ma
    let p := Rounded.seriesPoint R (h * w) (Rounded.entry R S [a, b])
    p.1 = R.rnd ((ma + mb) / 2) ∧
    |p.2 - Spec.imgPopVar h w (fun i j => (b.px i j : ℝ) - a.px i j) / 2|
      ≤ 4 * u * V + 6 * u * (D ^ 2 / 2) + 2 * u * ((ma + mb) * |D|) + 2 * u ^ 2 * (ma + mb) ^ 2 := by
  intro ma mb V D p
  have hu := R.u_nonneg
  have hser : p = _ := series_eq R S h w B a b ok hn hB
  obtain ⟨hp, ah, aw, bh, bw, ra, rb, env⟩ := ok
  have hneR : ((h : ℝ) * w) ≠ 0 := by exact_mod_cast hp.ne'
  have hpR : 0 < ((h : ℝ) * w) := by exact_mod_cast hp
  obtain ⟨hh0, hw0⟩ := mul_ne_zero_iff.1 hneR
  have m0 : ∀ (x : Img), (∀ r < h, ∀ c < w, 0 ≤ x.px r c ∧ x.px r c ≤ B) → 0 ≤ Spec.imgMean h w fun i j => (x.px i j : ℝ) := by
    intro x hx
    refine div_nonneg (sum_nonneg fun i hi => sum_nonneg fun j hj => ?_) hpR.le
    have := (hx i (mem_range.1 hi) j (mem_range.1 hj)).1
    show (0 : ℝ) ≤ (x.px i j : ℝ)
    exact_mod_cast this
  have ma0 : 0 ≤ ma := m0 a ra
  have mb0 : 0 ≤ mb := m0 b rb
  set P := ∑ i ∈ range h, ∑ j ∈ range w, 2 * (a.px i j - b.px i j) ^ 2 with hP
  have P0 : 0 ≤ P := sum_nonneg fun i _ => sum_nonneg fun j _ => by positivity
  have hPV : (P : ℝ) / (4 * ((h * w : ℕ) : ℝ)) = V := by
    have : ∀ i j, ((b.px i j : ℝ) - a.px i j) ^ 2 = (a.px i j - b.px i j) ^ 2 := by
      intro i j; ring
    simp only [V, Spec.halfMeanSq, hP, this]
    push_cast
    simp only [← mul_sum]
    field_simp
    ring
  have V0 : 0 ≤ V := by
    rw [← hPV]
    have : (0 : ℝ) ≤ P := by exact_mod_cast P0
    positivity
  -- the exact values
  have hvar : Spec.imgPopVar h w (fun i j => (b.px i j : ℝ) - a.px i j) / 2 = V - D ^ 2 / 2 := by
    rw [imgPopVar_eq h w hp, imgMean_sub]
    simp only [V, Spec.halfMeanSq, D, ma, mb]
    field_simp
  have hvar0 : D ^ 2 / 2 ≤ V := by
    have : 0 ≤ Spec.imgPopVar h w (fun i j => (b.px i j : ℝ) - a.px i j) / 2 := by
      unfold Spec.imgPopVar
      have : 0 ≤ ∑ i ∈ range h, ∑ j ∈ range w, (((b.px i j : ℝ) - a.px i j)
          - Spec.imgMean h w (fun i j => (b.px i j : ℝ) - a.px i j)) ^ 2 :=
        sum_nonneg fun i _ => sum_nonneg fun j _ => sq_nonneg _
      positivity
    rw [hvar] at this
    linarith
  rw [hser]
  refine ⟨rfl, ?_⟩
  · rw [hvar]
    set D' := R.rnd (R.rnd mb - R.rnd ma) with hD'
    show |R.rnd (R.rnd (R.rnd (P : ℝ) / (4 * ((h * w : ℕ) : ℝ))) - R.rnd (R.rnd (D' * D') / 2)) - (V - D ^ 2 / 2)| ≤ _
    -- relative errors of two roundings
    have two : ∀ (x c : ℝ), 0 < c → |R.rnd (R.rnd x / c) - x / c| ≤ (2 * u + u ^ 2) * |x / c| := by
      intro x c hc
      have h1 := R.err x
      have h2 := R.err (R.rnd x / c)
      have h3 : |R.rnd x / c - x / c| ≤ u * |x / c| := by
        rw [← sub_div, abs_div, abs_div, abs_of_pos hc, ← mul_div_assoc]
        exact div_le_div_of_nonneg_right h1 hc.le
      have h4 : |R.rnd x / c| ≤ (1 + u) * |x / c| := by
        have := abs_add_le (R.rnd x / c - x / c) (x / c)
        rw [sub_add_cancel] at this
        linarith
      have h5 := abs_add_le (R.rnd (R.rnd x / c) - R.rnd x / c) (R.rnd x / c - x / c)
      rw [sub_add_sub_cancel] at h5
      have h6 := mul_le_mul_of_nonneg_left h4 hu
      nlinarith
    have c4 : 0 < 4 * ((h * w : ℕ) : ℝ) := by
      have : (0 : ℝ) < ((h * w : ℕ) : ℝ) := by exact_mod_cast hp
      linarith
    refine variance_error (var' := R.rnd (R.rnd (P : ℝ) / (4 * ((h * w : ℕ) : ℝ)))) (D' := D')
      (q := R.rnd (R.rnd (D' * D') / 2)) hu hu1 V0 (add_nonneg ma0 mb0) hvar0 ?_ ?_ ?_ (R.err _)
    · have := two (P : ℝ) _ c4
      rwa [hPV, abs_of_nonneg V0] at this
    · -- the drift
      have e1 := R.err ma
      have e2 := R.err mb
      rw [abs_of_nonneg ma0] at e1
      rw [abs_of_nonneg mb0] at e2
      have e3 : |R.rnd mb - R.rnd ma - D| ≤ u * (ma + mb) := by
        have e : R.rnd mb - R.rnd ma - D = (R.rnd mb - mb) - (R.rnd ma - ma) := by simp only [D]; ring
        rw [e]
        refine (abs_sub _ _).trans ?_
        linarith
      have e4 := R.err (R.rnd mb - R.rnd ma)
      have e5 : |R.rnd mb - R.rnd ma| ≤ |D| + u * (ma + mb) := by
        have := abs_add_le (R.rnd mb - R.rnd ma - D) D
        rw [sub_add_cancel] at this
        linarith
      have e6 := abs_add_le (D' - (R.rnd mb - R.rnd ma)) (R.rnd mb - R.rnd ma - D)
      rw [sub_add_sub_cancel] at e6
      have e7 := mul_le_mul_of_nonneg_left e5 hu
      have e8 : u * (1 + u) * (ma + mb) = u * (ma + mb) + u * (u * (ma + mb)) := by ring
      rw [e8]
      linarith
    · have := two (D' * D') 2 two_pos
      rw [abs_of_nonneg (div_nonneg (mul_self_nonneg D') two_pos.le : 0 ≤ D' * D' / 2)] at this
      rw [sq]
      exact this

/-- C83, identical images: the temporal variance is exactly 0. -/
theorem C83_identical (h w : ℕ) (B : ℤ) (a : Img) (ok : PairOK h w B a a)
    (hn : (h : ℤ) * w ≤ 2 ^ 51) (hB : (h : ℤ) * w * B ≤ 2 ^ 52) :
    (Rounded.seriesPoint R (h * w) (Rounded.entry R S [a, a])).2 = 0 := by
  rw [series_eq R S h w B a a ok hn hB]
  simp [R.zero]

end Emva
