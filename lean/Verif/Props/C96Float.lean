import Verif.Props.C96Data
import Verif.Props.C84Example
import Verif.Props.C95Example

/-!
C96: the nonuniformities of two stacks of images in float64.
-/
set_option autoImplicit false
namespace Emva
open Spec Data Results Finset

/-- the spatial variance and its parts -/
inductive Spec.Part
  | total | row | col | pixel

/-- the attribute that gives a part of the variance of the dark or of the bright images -/
noncomputable def Spec.variance : Part → Bool → M ℝ (Fl ℝ)
  | .total => s2Y
  | .row => s2YRow
  | .col => s2YCol
  | .pixel => s2YPixel

/-- the same in floating point -/
noncomputable def Spec.varianceIn {u : ℝ} (R : Rounding u) : Part → Bool → M ℝ (Fl ℝ)
  | .total => Rounded.s2Y R
  | .row => Rounded.s2YRow R
  | .col => Rounded.s2YCol R
  | .pixel => Rounded.s2YPixel R

theorem stable_variance (p : Part) (d : Bool) : Stable (variance p d) := by
  cases p
  · exact stable_s2Y d
  · exact stable_s2YRow d
  · exact stable_s2YCol d
  · exact stable_s2YPixel d

theorem stable_varianceIn {u : ℝ} (R : Rounding u) (p : Part) (d : Bool) : Stable (varianceIn R p d) := by
  cases p
  · exact Rounded.stable_s2Y R d
  · exact Rounded.stable_s2YRow R d
  · exact Rounded.stable_s2YCol R d
  · exact Rounded.stable_s2YPixel R d

/-- what is known of the images of a stack: at least two images of `M x N` pixels with numbers up to `B` -/
structure Spec.Stack (imgs : List Img) (M N B : ℕ) : Prop where
  two : 2 ≤ imgs.length
  shape : ∀ a ∈ imgs, a.h = M ∧ a.w = N
  fits : ∀ i < M, ∀ j < N, Fits imgs B i j
  sums : imgs.length * B ≤ 2 ^ 53
  few : imgs.length ^ 3 ≤ 2 ^ 36

/-- the spatial data of the images are those of the object: exactly, and in float64 with sums in which no number takes part in more
than 160 additions (the pairwise summation of numpy is one, for images of up to 2^40 pixels) -/
structure Spec.Measured (imgs : List Img) (M N : ℕ) (d : Bool) (r' r : Res ℝ) : Prop where
  exact : getSpatialData M N (getIntImgs ℝ i64 imgs) = .ok (side d r.spatial)
  float : ∃ S : RSum Rounding.binary64, (∀ n ∈ [M * N, M, N], S.depth n ≤ 160) ∧
    side d r'.spatial = Rounded.spatialDict Rounding.binary64 S M N (getIntImgs ℚ i64 imgs)

/-- the pairwise summation of numpy -/
theorem Spec.Measured.pairwise {imgs : List Img} {M N : ℕ} {d : Bool} {r' r : Res ℝ} (h0 : 0 < M * N) (hn : M * N ≤ 2 ^ 40)
    (exact : getSpatialData M N (getIntImgs ℝ i64 imgs) = .ok (side d r.spatial))
    (float : side d r'.spatial = Rounded.spatialDict Rounding.binary64 (RSum.pairwise _) M N (getIntImgs ℚ i64 imgs)) :
    Measured imgs M N d r' r := by
  have hMle : M ≤ 2 ^ 40 := le_trans (Nat.le_mul_of_pos_right M (Nat.pos_of_mul_pos_left h0)) hn
  have hNle : N ≤ 2 ^ 40 := le_trans (Nat.le_mul_of_pos_left N (Nat.pos_of_mul_pos_right h0)) hn
  have dep : ∀ k ≤ 2 ^ 40, (RSum.pairwise Rounding.binary64).depth k ≤ 160 := fun k hk => by
    have : (RSum.pairwise Rounding.binary64).depth k ≤ 127 + 33 := pairDepth_le 33 k (hk.trans (by norm_num))
    omega
  refine ⟨exact, RSum.pairwise _, fun n hn' => ?_, float⟩
  simp only [List.mem_cons, List.not_mem_nil, or_false] at hn'
  rcases hn' with rfl | rfl | rfl
  exacts [dep _ hn, dep _ hMle, dep _ hNle]

theorem pow_b64 (k : ℕ) (hk : k ≤ 1000) : (1 + (2 : ℝ) ^ (-53 : ℤ)) ^ k ≤ 1 + 2 * k * 2 ^ (-53 : ℤ) := by
  have hk' : (k : ℝ) ≤ 1000 := by exact_mod_cast hk
  refine growth (by norm_num) k ?_
  norm_num
  linarith

/-- C96: in float64 each part of the spatial variance of images of at least 4 x 4 pixels with numbers up to `B` has an error of at
most `12 B² / 2^42`, and the mean one of at most `B / 2^44`. -/
theorem C96_variances {imgs : List Img} {M N B : ℕ} (h : Stack imgs M N B) (hM : 4 ≤ M) (hN : 4 ≤ N) (hn : M * N ≤ 2 ^ 40)
    {d : Bool} {r' r : Res ℝ} (hr : Measured imgs M N d r' r) :
    (∀ p, OffVal (1 + 2 ^ (-42 : ℤ)) (12 * B ^ 2) (val (varianceIn Rounding.binary64 p d) r') (val (variance p d) r)) ∧
    ∃ μ' μ, (side d r'.spatial).avg_mean = .fin μ' ∧ (side d r.spatial).avg_mean = .fin μ ∧ OffBy (1 + 2 ^ (-44 : ℤ)) B μ' μ := by
  obtain ⟨hL, hsh, hfit, hLB, hL3⟩ := h
  have hMle : M ≤ 2 ^ 40 := le_trans (Nat.le_mul_of_pos_right M (by omega)) hn
  have hNle : N ≤ 2 ^ 40 := le_trans (Nat.le_mul_of_pos_left N (by omega)) hn
  have hLle : imgs.length ≤ 2 ^ 12 := by
    by_contra hc
    rw [not_le] at hc
    have : (2 ^ 12) ^ 3 < imgs.length ^ 3 := Nat.pow_lt_pow_left hc (by norm_num)
    norm_num at this hL3
    omega
  obtain ⟨S, dep, float⟩ := hr.float
  have hMN : M + N < M * N := by nlinarith
  obtain ⟨s, hs, hrest⟩ := C96_stack Rounding.binary64 S imgs M N hL hsh B hfit (hn.trans (by norm_num)) hLB
    (hL3.trans (by norm_num)) ((Nat.mul_le_mul hLle hMle).trans (by norm_num)) ((Nat.mul_le_mul hLle hNle).trans (by norm_num))
    (by omega) 160 (dep _ (by simp)) (dep _ (by simp)) (dep _ (by simp))
  rw [hr.exact] at hs
  obtain rfl : side d r.spatial = s := by simpa using hs
  rw [← float] at hrest
  obtain ⟨e1, e2, e3, l1, l2, l3, ⟨v', v, a1, a2, a3⟩, ⟨w', w, b1, b2, b3⟩, ⟨c', c, c1, c2, c3⟩, ⟨p', p, d1, d2, d3⟩,
    ⟨μ', μ, m1, m2, m3⟩⟩ := hrest
  have B2 : (0 : ℝ) ≤ (B : ℝ) ^ 2 := by positivity
  have u1 : (1 : ℝ) ≤ 1 + 2 ^ (-53 : ℤ) := by norm_num
  refine ⟨?_, μ', μ, m1, m2, m3.mono ?_ le_rfl (one_le_pow₀ u1)⟩
  swap
  · refine (pow_b64 _ (by norm_num)).trans ?_
    norm_num
  obtain ⟨t1, t2, t3, t4⟩ := C96_components Rounding.binary64 r' r d _ _ rfl rfl e1 e2 e3 (by omega) (by rw [l2, l3]; exact hMN)
    ((1 + 2 ^ (-53 : ℤ)) ^ (5 * 160 + 16)) _ _ _ _ (one_le_pow₀ u1) v' v w' w c' c p' p a1 a2 a3 b1 b2 b3 c1 c2 c3 d1 d2 d3
  rw [← pow_add, l1] at t1
  rw [← pow_add, l1, l2, l3] at t2 t3 t4
  have hMr : (4 : ℝ) ≤ M := by exact_mod_cast hM
  have hNr : (4 : ℝ) ≤ N := by exact_mod_cast hN
  have hLr : (2 : ℝ) ≤ (imgs.length : ℝ) := by exact_mod_cast hL
  have hT : (B : ℝ) ^ 2 + (B : ℝ) ^ 2 / imgs.length ≤ 2 * (B : ℝ) ^ 2 := by
    have := div_le_self B2 (show (1 : ℝ) ≤ (imgs.length : ℝ) by linarith)
    linarith
  have hD : (M : ℝ) * N / 2 ≤ (M : ℝ) * N - M - N := by nlinarith
  have hD0 : 0 < (M : ℝ) * N / 2 := by positivity
  have hT0 : 0 ≤ (B : ℝ) ^ 2 + (B : ℝ) ^ 2 / imgs.length := by positivity
  generalize (B : ℝ) ^ 2 + (B : ℝ) ^ 2 / (imgs.length : ℝ) = T at *
  generalize (B : ℝ) ^ 2 = b at *
  generalize (M : ℝ) = m at *
  generalize (N : ℝ) = n at *
  obtain ⟨D, hDd⟩ : ∃ D, D = m * n - m - n := ⟨_, rfl⟩
  rw [← hDd] at hD t2 t3 t4
  have hDp : 0 < D := by linarith
  have out : ∀ {k : ℕ} {W : ℝ} {x y : Except PyErr (Fl ℝ)}, k ≤ 822 → W ≤ 12 * b → OffVal ((1 + 2 ^ (-53 : ℤ)) ^ k) W x y →
      OffVal (1 + 2 ^ (-42 : ℤ)) (12 * b) x y := by
    rintro k W x y hk hW ⟨a, b, ha, hb, H⟩
    refine ⟨a, b, ha, hb, H.mono ((pow_b64 k (by omega)).trans ?_) hW (one_le_pow₀ u1)⟩
    have : (k : ℝ) ≤ 822 := by exact_mod_cast hk
    norm_num
    linarith
  have q1 : ∀ {a c : ℝ}, a ≤ c * D → a / D ≤ c := fun h => by rwa [div_le_iff₀ hDp]
  intro p
  cases p
  · exact out (by norm_num) (by linarith) t1
  · refine out (by norm_num) ?_ t3
    have h1 : (m * n - n) / D * (2 * b) ≤ 2 * (2 * b) := mul_le_mul_of_nonneg_right (q1 (by linarith)) (by linarith)
    have h2 : m / D * (T + 2 * b) ≤ 1 * (4 * b) :=
      mul_le_mul (q1 (by nlinarith)) (by linarith) (by linarith) (by norm_num)
    linarith
  · refine out (by norm_num) ?_ t2
    have h1 : (m * n - m) / D * (2 * b) ≤ 2 * (2 * b) := mul_le_mul_of_nonneg_right (q1 (by linarith)) (by linarith)
    have h2 : n / D * (T + 2 * b) ≤ 1 * (4 * b) :=
      mul_le_mul (q1 (by nlinarith)) (by linarith) (by linarith) (by norm_num)
    linarith
  · refine out (by norm_num) ?_ t4
    have h1 : m * n / D * (T + 2 * b + 2 * b) ≤ 2 * (6 * b) :=
      mul_le_mul (q1 (by linarith)) (by linarith) (by linarith) (by norm_num)
    linarith

/-- C96: the nonuniformities of two stacks of images in float64. If the error of the variance is at most the fraction `ρ` of the
variance and the gain agrees up to a factor `t`, then the DSNU (and its part in rows, columns and pixels) is a number that agrees
with the exact one up to `(1 - ρ) t` and two roundings. The PRNU agrees up to `(1 - ρ) (1 - σ)` and three roundings, where `ρ` is
the fraction for the difference of the variances and `σ` that for the difference of the means. -/
theorem C96_float64 (dark bright : List Img) (M N Bd Bb : ℕ) (hd : Stack dark M N Bd) (hb : Stack bright M N Bb)
    (hM : 4 ≤ M) (hN : 4 ≤ N) (hn : M * N ≤ 2 ^ 40) (r' r : Res ℝ) (md : Measured dark M N true r' r)
    (mb : Measured bright M N false r' r) (p : Part) (vd : ℝ) (ed : val (variance p true) r = .ok (.fin vd)) :
    (0 < vd → ∀ ρ : ℝ, 12 * Bd ^ 2 * 2 ^ (-42 : ℤ) ≤ ρ * vd → ρ < 1 → ∀ (q' q : LSQ ℝ) (t k' k : ℝ), 0 < t →
      val (Rounded.gain Rounding.binary64 q') r' = .ok (.fin k') → val (K q) r = .ok (.fin k) → 0 < k → Close t k' k →
      ∃ a, val (Rounded.dsnu Rounding.binary64 q' (varianceIn Rounding.binary64 p true)) r' = .ok (.num (.fin a)) ∧
        val (dsnu q (variance p true)) r = .ok (.num (.fin (√vd / k))) ∧
        Close ((1 - ρ) * t * (1 - 2 ^ (-53 : ℤ)) ^ 2) a (√vd / k)) ∧
    ∀ vb : ℝ, val (variance p false) r = .ok (.fin vb) → vd < vb →
      ∀ ρ : ℝ, 12 * (Bb ^ 2 + Bd ^ 2) * 2 ^ (-41 : ℤ) ≤ ρ * (vb - vd) → ρ < 1 →
      ∀ μb μd σ : ℝ, r.spatial.bright.avg_mean = .fin μb → r.spatial.dark.avg_mean = .fin μd → μd < μb →
      (Bb + Bd) * 2 ^ (-43 : ℤ) ≤ σ * (μb - μd) → σ < 1 →
      ∃ a, val (Rounded.prnu Rounding.binary64 (varianceIn Rounding.binary64 p)) r' = .ok (.fin a) ∧
        val (prnu (variance p)) r = .ok (.fin (√(vb - vd) * 100 / (μb - μd))) ∧
        Close ((1 - ρ) * (1 - σ) * (1 - 2 ^ (-53 : ℤ)) ^ 3) a (√(vb - vd) * 100 / (μb - μd)) := by
  obtain ⟨od, nd', nd, fd', fd, pd⟩ := C96_variances hd hM hN hn md
  obtain ⟨ob, nb', nb, fb', fb, pb⟩ := C96_variances hb hM hN hn mb
  have u1 : (2 : ℝ) ^ (-53 : ℤ) < 1 := by norm_num
  constructor
  · intro hv ρ hρ hρ1 q' q t k' k ht hK' hK hk ck
    obtain ⟨a, y, h1, h2, rfl, h4⟩ := C96_dsnu Rounding.binary64 u1 q' q r' r _ _ (stable_varianceIn Rounding.binary64 p true)
      (stable_variance p true) _ _ ρ vd t k' k (od p) ed hv (by linarith) hρ1 ht hK' hK hk ck
    exact ⟨a, h1, h2, h4⟩
  · intro vb eb hlt ρ hρ hρ1 μb μd σ eμb eμd hμ hσ hσ1
    have B0 : (0 : ℝ) ≤ (Bb : ℝ) + Bd := by positivity
    have B2 : (0 : ℝ) ≤ 12 * ((Bb : ℝ) ^ 2 + Bd ^ 2) := by positivity
    obtain rfl : nb = μb := by have := fb.symm.trans eμb; simpa using this
    obtain rfl : nd = μd := by have := fd.symm.trans eμd; simpa using this
    have s1 : ((1 + (2 : ℝ) ^ (-42 : ℤ)) * (1 + 2 ^ (-53 : ℤ)) - 1) * (12 * (Bb : ℝ) ^ 2 + 12 * Bd ^ 2) ≤ ρ * (vb - vd) := by
      refine le_trans ?_ hρ
      rw [← mul_add, mul_comm]
      exact mul_le_mul_of_nonneg_left (by norm_num) B2
    have s2 : ((1 + (2 : ℝ) ^ (-44 : ℤ)) * (1 + 2 ^ (-53 : ℤ)) - 1) * ((Bb : ℝ) + Bd) ≤ σ * (nb - nd) := by
      refine le_trans ?_ hσ
      rw [mul_comm]
      exact mul_le_mul_of_nonneg_left (by norm_num) B0
    obtain ⟨a, y, h1, h2, rfl, h4⟩ := C96_prnu Rounding.binary64 u1 r' r _ _ (stable_varianceIn Rounding.binary64 p)
      (stable_variance p) _ _ _ ρ σ vb vd _ (ob p) (od p) eb ed hlt s1 hρ1 nb' nb nd' nd _ _ fb' eμb pb fd' eμd pd hμ s2 hσ1
    exact ⟨a, h1, h2, h4⟩

/-- C96: the DSNU in DN. -/
theorem C96_dsnu_DN (dark : List Img) (M N B : ℕ) (hd : Stack dark M N B) (hM : 4 ≤ M) (hN : 4 ≤ N) (hn : M * N ≤ 2 ^ 40)
    (r' r : Res ℝ) (md : Measured dark M N true r' r) (v ρ : ℝ) (ev : val (s2Y true) r = .ok (.fin v)) (hv : 0 < v)
    (hρ : 12 * B ^ 2 * 2 ^ (-42 : ℤ) ≤ ρ * v) (hρ1 : ρ < 1) :
    ∃ a, val (Rounded.DSNU1288DN Rounding.binary64) r' = .ok (.num (.fin a)) ∧ val DSNU1288DN r = .ok (.num (.fin (√v))) ∧
      Close ((1 - ρ) * (1 - 2 ^ (-53 : ℤ))) a (√v) := by
  obtain ⟨a, b, ea, eb, H⟩ := (C96_variances hd hM hN hn md).1 .total
  replace ea : val (Rounded.s2Y Rounding.binary64 true) r' = .ok (.fin a) := ea
  obtain rfl : v = b := by have := ev.symm.trans eb; simpa using this
  have c := H.close hv (ρ := ρ) (by linarith) hρ1.le
  have hρ0 : 0 < 1 - ρ := by linarith
  have hρn : 1 - ρ ≤ 1 := by
    have h1 : (0 : ℝ) ≤ 12 * (B : ℝ) ^ 2 * 2 ^ (-42 : ℤ) := by positivity
    have : 0 ≤ ρ := by
      by_contra hc
      exact absurd (h1.trans hρ) (not_le.2 (mul_neg_of_neg_of_pos (not_le.1 hc) hv))
    linarith
  have ha := Close.pos c hρ0 hv
  have s' := Rounded.stable_s2Y Rounding.binary64 true
  have s := stable_s2Y (F := ℝ) true
  refine ⟨Rounding.binary64.rnd (√a), ?_, ?_, ?_⟩
  · unfold Rounded.DSNU1288DN
    rw [val_bind_ok s' (by stab) ea, if_neg (by simpa using ha.le), val_bind_ok s' (by stab) ea, val_pure, Fl.sqrt_fin ha.le, Rounded.rd]
  · unfold DSNU1288DN
    rw [val_bind_ok s (by stab) ev, if_neg (by simpa using hv.le), val_bind_ok s (by stab) ev, val_pure, Fl.sqrt_fin hv.le]
  · have c1 := Close.sqrt c hρ0.le hρn
    have := Close.trans (Close.rnd Rounding.binary64 (by norm_num) c1.1) c1 (by norm_num) hρ0.le
    rwa [mul_comm] at this

end Emva
