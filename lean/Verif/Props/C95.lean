import Verif.Model.RoundedResults
import Verif.Lemmas.Close
import Verif.Props.C29_C32

/-!
C95: the results in floating point arithmetic, from the gain, the responsivity, the dark noise and the saturation.
-/
set_option autoImplicit false
namespace Emva
open Spec Data Results

/-- the two attributes have finite values that agree up to the factor `f` -/
def Spec.AgreeUpTo (f : ℝ) (x y : Except PyErr (Fl ℝ)) : Prop :=
  ∃ a b, x = .ok (.fin a) ∧ y = .ok (.fin b) ∧ Close f a b

namespace Rounded
variable {u : ℝ} (R : Rounding u) (q : LSQ ℝ)

theorem stable_signal : Stable (signal R) := stable_temporal.bind fun _ => Stable.lift _
theorem stable_lastBelow (c : ℝ) : Stable (lastBelow R c) := by
  have := stable_signal R; unfold lastBelow; stab
theorem stable_smax : Stable (indexSensitivityMax R) := stable_lastBelow R _
theorem stable_resp : Stable (resp R q) := by
  have := stable_signal R; have := stable_smax R; unfold resp; stab
theorem stable_gain : Stable (gain R q) := by
  have := stable_signal R; have := stable_smax R; unfold gain; stab
theorem stable_QE : Stable (QE R q) := by
  have := stable_resp R q; have := stable_gain R q; unfold QE; stab
theorem stable_sigmaYDark : Stable (sigmaYDark R q) := by
  have := stable_rawDark q; unfold sigmaYDark; stab
theorem stable_uPMin : Stable (uPMin R q) := by
  have := stable_QE R q; have := stable_sigmaYDark R q; have := stable_gain R q; unfold uPMin; stab
theorem stable_uESat : Stable (uESat R q) := by
  have := stable_QE R q; have := stable_uPSat (F := ℝ); unfold uESat; stab
theorem stable_SNRMax : Stable (SNRMax R q) := by
  have := stable_uESat R q; unfold SNRMax; stab

end Rounded

section
variable {u : ℝ} (R : Rounding u)

set_option maxHeartbeats 1000000 in
/-- C95: if gain, responsivity, saturation and dark variance computed in floating point agree with the exact ones up to a factor
`t`, then all results derived from them agree up to a power of `t` and one factor `1 - u` for each operation. -/
theorem C95_results (hu : u < 1) (q' q : LSQ ℝ) (r' r : Res ℝ) (t : ℝ) (ht : 0 < t) (ht1 : t ≤ 1)
    (hacc : 3 / 4 ≤ t ^ 2 * (1 - u) ^ 5) (k' k m' m p' p v' v : ℝ)
    (hK' : val (Rounded.gain R q') r' = .ok (.fin k')) (hK : val (K q) r = .ok (.fin k)) (hk : 0 < k) (ck : Close t k' k)
    (hR' : val (Rounded.resp R q') r' = .ok (.fin m')) (hR : val (Results.R q) r = .ok (.fin m)) (hm : 0 < m) (cm : Close t m' m)
    (hP' : val uPSat r' = .ok (.fin p')) (hP : val uPSat r = .ok (.fin p)) (hp : 0 < p) (cp : Close t p' p)
    (hV' : val (rawDark q') r' = .ok (.fin v')) (hV : val (rawDark q) r = .ok (.fin v)) (cv : Close t (max v' 0) (max v 0)) :
    let s := 1 - u
    AgreeUpTo (t * s) (val (Rounded.inverseK R q') r') (val (inverseK q) r) ∧
    AgreeUpTo (t ^ 2 * s ^ 2) (val (Rounded.QE R q') r') (val (QE q) r) ∧
    AgreeUpTo (t * s ^ 2) (val (Rounded.sigmaYDark R q') r') (val (sigmaYDark q) r) ∧
    AgreeUpTo (t ^ 7 * s ^ 18) (val (Rounded.sigmaD R q') r') (val (sigmaD q) r) ∧
    AgreeUpTo (t ^ 4 * s ^ 8) (val (Rounded.uPMin R q') r') (val (uPMin q) r) ∧
    AgreeUpTo (t ^ 6 * s ^ 12) (val (Rounded.uEMin R q') r') (val (uEMin q) r) ∧
    AgreeUpTo (t ^ 3 * s ^ 4) (val (Rounded.uESat R q') r') (val (uESat q) r) ∧
    AgreeUpTo (t ^ 3 * s ^ 5) (val (Rounded.SNRMax R q') r') (val (SNRMax q) r) ∧
    AgreeUpTo (t ^ 3 * s ^ 6) (val (Rounded.inverseSNRMax R q') r') (val (inverseSNRMax q) r) ∧
    AgreeUpTo (t ^ 5 * s ^ 9) (val (Rounded.DR R q') r') (val (DR q) r) := by
  intro s
  have hs : 0 < s := by show 0 < 1 - u; linarith
  have hs1 : s ≤ 1 := by have := R.u_nonneg; show 1 - u ≤ 1; linarith
  have rn : ∀ {x : ℝ}, 0 ≤ x → Close s (R.rnd x) x := fun h => Close.rnd R hu.le h
  have le1 : ∀ a b : ℕ, t ^ a * s ^ b ≤ 1 := fun a b =>
    mul_le_one₀ (pow_le_one₀ ht.le ht1) (by positivity) (pow_le_one₀ hs.le hs1)
  have mono : ∀ {a b c d : ℕ} {x y : ℝ}, Close (t ^ a * s ^ b) x y → a ≤ c → b ≤ d → Close (t ^ c * s ^ d) x y :=
    fun h h1 h2 => Close.mono h (mul_le_mul (pow_le_pow_of_le_one ht.le ht1 h1) (pow_le_pow_of_le_one hs.le hs1 h2)
      (by positivity) (by positivity))
  have T1 : ∀ {x y : ℝ}, Close t x y → Close (t ^ 1 * s ^ 0) x y := fun h => by simpa using h
  have S1 : ∀ {x y : ℝ}, Close s x y → Close (t ^ 0 * s ^ 1) x y := fun h => by simpa using h
  have E : ∀ {x : ℝ}, 0 ≤ x → Close (t ^ 0 * s ^ 0) x x := fun h => Close.refl h (le1 0 0)
  -- one more rounding
  have rd : ∀ {a b : ℕ} {x y : ℝ}, Close (t ^ a * s ^ b) x y → Close (t ^ a * s ^ (b + 1)) (R.rnd x) y := fun {a b x y} h => by
    have := Close.trans (rn h.1) h hs.le (by positivity)
    rwa [show s * (t ^ a * s ^ b) = t ^ a * s ^ (b + 1) by ring] at this
  have mul : ∀ {a b c d : ℕ} {x y z w : ℝ}, Close (t ^ a * s ^ b) x y → Close (t ^ c * s ^ d) z w →
      Close (t ^ (a + c) * s ^ (b + d)) (x * z) (y * w) := fun {a b c d x y z w} h h' => by
    have := Close.mul h h' (by positivity) (by positivity)
    rwa [show t ^ a * s ^ b * (t ^ c * s ^ d) = t ^ (a + c) * s ^ (b + d) by ring] at this
  have div : ∀ {a b c d : ℕ} {x y z w : ℝ}, Close (t ^ a * s ^ b) x y → Close (t ^ c * s ^ d) z w → 0 < w →
      Close (t ^ (a + c) * s ^ (b + d)) (x / z) (y / w) := fun {a b c d x y z w} h h' hw => by
    have := Close.div h h' (by positivity) (by positivity) hw
    rwa [show t ^ a * s ^ b * (t ^ c * s ^ d) = t ^ (a + c) * s ^ (b + d) by ring] at this
  have hk' : 0 < k' := Close.pos ck ht hk
  have sK' := Rounded.stable_gain R q'
  have sK := stable_K q
  have sR' := Rounded.stable_resp R q'
  have sR := stable_R q
  have sQ' := Rounded.stable_QE R q'
  have sQ := stable_QE q
  have sS' := Rounded.stable_sigmaYDark R q'
  have sS := stable_sigmaYDark q
  have sP := stable_uPSat (F := ℝ)
  have sM' := Rounded.stable_uPMin R q'
  have sM := stable_uPMin q
  have sV' := stable_rawDark q'
  have sV := stable_rawDark q
  have sE' := Rounded.stable_uESat R q'
  have sE := stable_uESat q
  have sN' := Rounded.stable_SNRMax R q'
  have sN := stable_SNRMax q
  -- inverse_K
  have eik' : val (Rounded.inverseK R q') r' = .ok (.fin (R.rnd (1 / k'))) := by
    unfold Rounded.inverseK
    rw [val_bind_ok sK' (by stab) hK', val_pure, Fl.fin_div hk'.ne', Rounded.rd]
  have eik : val (inverseK q) r = .ok (.fin (1 / k)) := by
    unfold inverseK
    rw [val_bind_ok sK (by stab) hK, val_pure, Fl.fin_div hk.ne']
  have cik := rd (div (E zero_le_one) (T1 ck) hk)
  -- QE
  have eq' : val (Rounded.QE R q') r' = .ok (.fin (R.rnd (R.rnd (100 * m') / k'))) := by
    unfold Rounded.QE
    rw [val_bind_ok sR' (by stab) hR', val_bind_ok sK' (by stab) hK', val_pure, Fl.fin_mul, Rounded.rd, Fl.fin_div hk'.ne',
      Rounded.rd]
  have eq := val_QE q r hk.ne' hK hR
  have cq := rd (div (rd (mul (E (by norm_num : (0 : ℝ) ≤ 100)) (T1 cm))) (T1 ck) hk)
  have hq0 : 0 < 100 * m / k := by positivity
  have hq0' := Close.pos cq (by positivity) hq0
  -- sigma_y_dark
  have h24 : 0 ≤ R.rnd (24 / 100) := (rn (by norm_num)).1
  have ev' : val (Rounded.sigmaYDark R q') r' = .ok (.fin (R.rnd (Real.sqrt (max v' (R.rnd (24 / 100)))))) := by
    unfold Rounded.sigmaYDark
    rw [val_bind_ok sV' (by stab) hV', val_pure]
    have : (if Fl.lt (.fin v') (Rounded.rd R (.fin (24 / 100))) then Rounded.rd R (.fin (24 / 100)) else .fin v') =
        (.fin (max v' (R.rnd (24 / 100))) : Fl ℝ) := by
      by_cases h : v' < R.rnd (24 / 100)
      · rw [if_pos (by simpa [Rounded.rd] using h), max_eq_right h.le, Rounded.rd]
      · rw [if_neg (by simpa [Rounded.rd] using h), max_eq_left (not_lt.1 h)]
    rw [this, Fl.sqrt_fin (h24.trans (le_max_right _ _)), Rounded.rd]
  have ev : val (sigmaYDark q) r = .ok (.fin (Real.sqrt (max v (24 / 100)))) := by
    unfold sigmaYDark s2YDark
    rw [val_bind_ok (by stab) (by stab) (a := .fin (max v (24 / 100)))
      (by
        rw [val_bind_ok sV (by stab) hV, val_pure]
        by_cases h : v < 24 / 100
        · rw [if_pos (by simpa using h), max_eq_right h.le]
        · rw [if_neg (by simpa using h), max_eq_left (not_lt.1 h)]),
      val_pure, Fl.sqrt_fin (le_max_of_le_right (by norm_num))]
  have cmax : Close (t ^ 1 * s ^ 1) (max v' (R.rnd (24 / 100))) (max v (24 / 100)) := by
    have h1 := Close.max (mono (T1 cv) le_rfl (Nat.zero_le 1)) (mono (S1 (rn (by norm_num : (0 : ℝ) ≤ 24 / 100))) (Nat.zero_le 1) le_rfl)
      (by positivity)
    rwa [max_assoc, max_assoc, max_eq_right h24, max_eq_right (by norm_num : (0 : ℝ) ≤ 24 / 100)] at h1
  have hb24 : 24 / 100 ≤ max v (24 / 100) := le_max_right _ _
  have hb0 : 0 < max v (24 / 100) := lt_of_lt_of_le (by norm_num) hb24
  have cs := rd (Close.sqrt cmax (by positivity) (le1 1 1))
  generalize max v (24 / 100) = b at *
  generalize max v' (R.rnd (24 / 100)) = b' at *
  set σ := Real.sqrt b with hσ
  have hσ0 : 0 < σ := Real.sqrt_pos.2 hb0
  have hσ2 : σ * σ = b := Real.mul_self_sqrt hb0.le
  generalize R.rnd (Real.sqrt b') = σ' at *
  -- sigma_d
  have csq := rd (mul cs cs)
  have c12 := mono (S1 (rn (by norm_num : (0 : ℝ) ≤ 1 / 12))) (Nat.zero_le 2) (by norm_num : 1 ≤ 5)
  have csub := Close.sub csq c12 hacc (le1 2 5) (by rw [hσ2]; linarith)
  have csub' := Close.sqrt (t := t ^ 6 * s ^ 16) (rd (a := 6) (b := 15) (by
    rwa [show (t ^ (1 + 1) * s ^ (1 + 1 + (1 + 1) + 1)) ^ 3 = t ^ 6 * s ^ 15 by ring] at csub)) (by positivity) (le1 _ _)
  have cd := rd (div (rd csub') (T1 ck) hk)
  have ed' : val (Rounded.sigmaD R q') r' =
      .ok (.fin (R.rnd (R.rnd (Real.sqrt (R.rnd (R.rnd (σ' * σ') - R.rnd (1 / 12)))) / k'))) := by
    unfold Rounded.sigmaD
    rw [val_bind_ok sS' (by stab) ev', val_bind_ok sK' (by stab) hK', val_pure, Fl.sq_fin, Rounded.rd, Rounded.rd, Fl.fin_sub,
      Rounded.rd, Fl.sqrt_fin (rn csub.1).1, Rounded.rd, Fl.fin_div hk'.ne', Rounded.rd]
  have ed : val (sigmaD q) r = .ok (.fin (Real.sqrt (σ * σ - 1 / 12) / k)) := by
    unfold sigmaD
    rw [val_bind_ok sS (by stab) ev, val_bind_ok sK (by stab) hK, val_pure, Fl.sq_fin, Fl.fin_sub, Fl.sqrt_fin csub.2.1,
      Fl.fin_div hk.ne']
  -- u_p_min
  have half := E (by norm_num : (0 : ℝ) ≤ 1 / 2)
  have cpm := rd (mul (rd (div (E (by norm_num : (0 : ℝ) ≤ 100)) cq hq0))
    (rd (Close.add (rd (div cs (T1 ck) hk)) (mono half (Nat.zero_le 2) (Nat.zero_le 3)))))
  have em' : val (Rounded.uPMin R q') r' = .ok (.fin (R.rnd (R.rnd (100 / R.rnd (R.rnd (100 * m') / k')) *
      R.rnd (R.rnd (σ' / k') + 1 / 2)))) := by
    unfold Rounded.uPMin
    rw [val_bind_ok sQ' (by stab) eq', val_bind_ok sS' (by stab) ev', val_bind_ok sK' (by stab) hK', val_pure,
      Fl.fin_div hq0'.ne', Fl.fin_div hk'.ne', Rounded.rd, Rounded.rd, Fl.fin_add, Rounded.rd, Fl.fin_mul, Rounded.rd]
  have em : val (uPMin q) r = .ok (.fin (100 / (100 * m / k) * (σ / k + 1 / 2))) := by
    unfold uPMin
    rw [val_bind_ok sQ (by stab) eq, val_bind_ok sS (by stab) ev, val_bind_ok sK (by stab) hK,
      val_pure, Fl.fin_div hq0.ne', Fl.fin_div hk.ne', Fl.fin_add, Fl.fin_mul]
  have hm0 : 0 < 100 / (100 * m / k) * (σ / k + 1 / 2) := by positivity
  have hm0' := Close.pos cpm (by positivity) hm0
  -- u_e_min
  have cem := rd (div (rd (mul cq cpm)) (E (by norm_num : (0 : ℝ) ≤ 100)) (by norm_num))
  have eem' : val (Rounded.uEMin R q') r' =
      .ok (.fin (R.rnd (R.rnd (R.rnd (R.rnd (100 * m') / k') *
        R.rnd (R.rnd (100 / R.rnd (R.rnd (100 * m') / k')) * R.rnd (R.rnd (σ' / k') + 1 / 2))) / 100))) := by
    unfold Rounded.uEMin
    rw [val_bind_ok sQ' (by stab) eq', val_bind_ok sM' (by stab) em', val_pure, Fl.fin_mul, Rounded.rd,
      Fl.fin_div (by norm_num), Rounded.rd]
  have eem : val (uEMin q) r = .ok (.fin (100 * m / k * (100 / (100 * m / k) * (σ / k + 1 / 2)) / 100)) := by
    unfold uEMin
    rw [val_bind_ok sQ (by stab) eq, val_bind_ok sM (by stab) em, val_pure, Fl.fin_mul, Fl.fin_div (by norm_num)]
  -- u_e_sat
  have ces := rd (div (rd (mul cq (T1 cp))) (E (by norm_num : (0 : ℝ) ≤ 100)) (by norm_num))
  have ees' : val (Rounded.uESat R q') r' = .ok (.fin (R.rnd (R.rnd (R.rnd (R.rnd (100 * m') / k') * p') / 100))) := by
    unfold Rounded.uESat
    rw [val_bind_ok sQ' (by stab) eq', val_bind_ok sP (by stab) hP', val_pure, Fl.fin_mul, Rounded.rd,
      Fl.fin_div (by norm_num), Rounded.rd]
  have ees : val (uESat q) r = .ok (.fin (100 * m / k * p / 100)) := by
    unfold uESat
    rw [val_bind_ok sQ (by stab) eq, val_bind_ok sP (by stab) hP, val_pure, Fl.fin_mul, Fl.fin_div (by norm_num)]
  have hes0 : 0 < 100 * m / k * p / 100 := by positivity
  -- SNR_max
  have csn := rd (Close.sqrt ces (by positivity) (le1 _ _))
  have esn' : val (Rounded.SNRMax R q') r' = .ok (.fin (R.rnd (Real.sqrt (R.rnd (R.rnd (R.rnd (R.rnd (100 * m') / k') * p') / 100))))) := by
    unfold Rounded.SNRMax
    rw [val_bind_ok sE' (by stab) ees', val_pure, Fl.sqrt_fin ces.1, Rounded.rd]
  have esn : val (SNRMax q) r = .ok (.fin (Real.sqrt (100 * m / k * p / 100))) := by
    unfold SNRMax
    rw [val_bind_ok sE (by stab) ees, val_pure, Fl.sqrt_fin hes0.le]
  have hsn0 := Real.sqrt_pos.2 hes0
  have hsn0' := Close.pos csn (by positivity) hsn0
  have cis := rd (div (E (by norm_num : (0 : ℝ) ≤ 100)) csn hsn0)
  have eis' : val (Rounded.inverseSNRMax R q') r' =
      .ok (.fin (R.rnd (100 / R.rnd (Real.sqrt (R.rnd (R.rnd (R.rnd (R.rnd (100 * m') / k') * p') / 100)))))) := by
    unfold Rounded.inverseSNRMax
    rw [val_bind_ok sN' (by stab) esn', val_pure, Fl.fin_div hsn0'.ne', Rounded.rd]
  have eis : val (inverseSNRMax q) r = .ok (.fin (100 / Real.sqrt (100 * m / k * p / 100))) := by
    unfold inverseSNRMax
    rw [val_bind_ok sN (by stab) esn, val_pure, Fl.fin_div hsn0.ne']
  -- DR
  have cdr := rd (div (T1 cp) cpm hm0)
  have edr' : val (Rounded.DR R q') r' = .ok (.fin (R.rnd (p' /
      R.rnd (R.rnd (100 / R.rnd (R.rnd (100 * m') / k')) * R.rnd (R.rnd (σ' / k') + 1 / 2))))) := by
    unfold Rounded.DR
    rw [val_bind_ok sP (by stab) hP', val_bind_ok sM' (by stab) em', val_pure, Fl.fin_div hm0'.ne', Rounded.rd]
  have edr : val (DR q) r = .ok (.fin (p / (100 / (100 * m / k) * (σ / k + 1 / 2)))) := by
    unfold DR
    rw [val_bind_ok sP (by stab) hP, val_bind_ok sM (by stab) em, val_pure, Fl.fin_div hm0.ne']
  exact ⟨⟨_, _, eik', eik, by simpa using cik⟩, ⟨_, _, eq', eq, cq⟩, ⟨_, _, ev', ev, by simpa using cs⟩, ⟨_, _, ed', ed, cd⟩,
    ⟨_, _, em', em, cpm⟩, ⟨_, _, eem', eem, cem⟩, ⟨_, _, ees', ees, ces⟩, ⟨_, _, esn', esn, csn⟩, ⟨_, _, eis', eis, cis⟩,
    ⟨_, _, edr', edr, cdr⟩⟩

end
end Emva
