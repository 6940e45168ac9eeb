import Verif.Lemmas.Results2
import Verif.Lemmas.ResultsHist
import Verif.Model.Attrs
import Mathlib.Data.Rat.Lemmas
import Mathlib.Tactic.NormNum
import Mathlib.Tactic.IntervalCases

/-!
C22-C24: the saturation index and the cached state of `Results1288`.
-/
set_option autoImplicit false
set_option linter.unusedSectionVars false
namespace Emva
open Spec Data Results
variable {F : Type} [Field F] [LinearOrder F] [IsStrictOrderedRing F]

/-- the loop from below position `i` with the running maximum at `i` -/
theorem satLoop_peak (s : List F) (i : ℕ) (x : F) (hx : s[i]? = some x) :
    ∃ k, satLoop (s.map .fin) i (.fin x) i = .ok k ∧ k ≤ i ∧ (k = 0 ∨ AboveTwo s k) ∧
      ∀ j, k < j → j ≤ i → ¬ AboveTwo s j := by
  induction i generalizing x with
  | zero => exact ⟨0, rfl, le_rfl, .inl rfl, fun j h1 h2 => by omega⟩
  | succ i ih =>
    have hi1 : i + 1 < s.length := (List.getElem?_eq_some_iff.1 hx).1
    have hi : i < s.length := by omega
    obtain ⟨y, hy⟩ : ∃ y, s[i]? = some y := ⟨_, List.getElem?_eq_getElem hi⟩
    have idx1 : Np.idx (s.map Fl.fin) (i : ℤ) = .ok (.fin y) :=
      Np.idx_of_some (by rw [List.getElem?_map, hy]; rfl)
    have cont : ¬ AboveTwo s (i + 1) → ∃ k, satLoop (s.map .fin) i (.fin y) i = .ok k ∧ k ≤ i + 1 ∧
        (k = 0 ∨ AboveTwo s k) ∧ ∀ j, k < j → j ≤ i + 1 → ¬ AboveTwo s j := by
      intro hno
      obtain ⟨k, h1, h2, h3, h4⟩ := ih y hy
      refine ⟨k, h1, by omega, h3, fun j hj1 hj2 => ?_⟩
      by_cases hj : j = i + 1
      · rw [hj]; exact hno
      · exact h4 j hj1 (by omega)
    unfold satLoop
    simp only [idx1]
    by_cases hc : x ≤ y
    · rw [if_pos (show Fl.le (.fin x) (.fin y) = true from decide_eq_true hc)]
      refine cont ?_
      rintro ⟨-, a, b, c, ha, hb, -, hlt, -⟩
      rw [hx] at ha; cases ha
      rw [Nat.add_sub_cancel, hy] at hb; cases hb
      exact absurd hlt (not_lt.2 hc)
    · rw [if_neg (show ¬ Fl.le (.fin x) (.fin y) = true by simpa using hc)]
      have hz : ((i : ℤ) - 1).natAbs < s.length := by omega
      obtain ⟨z, hzv⟩ : ∃ z, s[((i : ℤ) - 1).natAbs]? = some z := ⟨_, List.getElem?_eq_getElem hz⟩
      have idx2 : Np.idx (s.map Fl.fin) (((i : ℤ) - 1).natAbs : ℤ) = .ok (.fin z) :=
        Np.idx_of_some (by rw [List.getElem?_map, hzv]; rfl)
      simp only [idx2]
      by_cases hcz : x ≤ z
      · rw [if_pos (show Fl.le (.fin x) (.fin z) = true from decide_eq_true hcz)]
        refine cont ?_
        rintro ⟨h2, a, b, c, ha, -, hc', -, hlt⟩
        rw [hx] at ha; cases ha
        rw [show i + 1 - 2 = ((i : ℤ) - 1).natAbs by omega, hzv] at hc'; cases hc'
        exact absurd hlt (not_lt.2 hcz)
      · rw [if_neg (show ¬ Fl.le (.fin x) (.fin z) = true by simpa using hcz),
          if_pos (show (Fl.lt (.fin y) (.fin x) && Fl.lt (.fin z) (.fin x)) = true by
            simp [not_le.1 hc, not_le.1 hcz])]
        refine ⟨i + 1, rfl, le_rfl, .inr ⟨?_, x, y, z, hx, hy, ?_, not_le.1 hc, not_le.1 hcz⟩,
          fun j h1 h2 => by omega⟩
        · by_contra h
          have : i = 0 := by omega
          subst this
          simp only [Nat.cast_zero, zero_sub, Int.natAbs_neg, Int.natAbs_one] at hzv
          simp only [zero_add] at hx
          rw [hx] at hzv; cases hzv
          exact hcz le_rfl
        · by_cases h0 : i = 0
          · subst h0
            simp only [Nat.cast_zero, zero_sub, Int.natAbs_neg, Int.natAbs_one] at hzv
            simp only [zero_add] at hx
            rw [hx] at hzv; cases hzv
            exact absurd le_rfl hcz
          · rw [show i + 1 - 2 = ((i : ℤ) - 1).natAbs by omega, hzv]

theorem satLoop_start (s : List F) (hne : s ≠ []) (h0 : ∀ x ∈ s, 0 ≤ x) :
    ∃ k, satLoop (s.map .fin) (s.map Fl.fin).length (.fin 0) 0 = .ok k ∧ k < s.length ∧
      (k = 0 ∨ AboveTwo s k) ∧ ∀ j, k < j → ¬ AboveTwo s j := by
  obtain ⟨n, hn⟩ : ∃ n, s.length = n + 1 :=
    ⟨s.length - 1, by have := List.length_pos_of_ne_nil hne; omega⟩
  obtain ⟨x, hx⟩ : ∃ x, s[n]? = some x := ⟨_, List.getElem?_eq_getElem (by omega)⟩
  obtain ⟨k, h1, h2, h3, h4⟩ := satLoop_peak s n x hx
  refine ⟨k, ?_, by omega, h3, fun j hj hA => ?_⟩
  · rw [List.length_map, hn]
    unfold satLoop
    have idx1 : Np.idx (s.map Fl.fin) (n : ℤ) = .ok (.fin x) :=
      Np.idx_of_some (by rw [List.getElem?_map, hx]; rfl)
    simp only [idx1]
    rw [if_pos (show Fl.le (.fin 0) (.fin x) = true from
      decide_eq_true (h0 x (List.mem_of_getElem? hx)))]
    exact h1
  · obtain ⟨-, a, -, -, ha, -⟩ := id hA
    have := (List.getElem?_eq_some_iff.1 ha).1
    exact h4 j hj (by omega) hA

/-- C22: for every non-empty curve of non-negative variances, on a fresh object the saturation index is
the last position strictly above both of its two predecessors, and 0 if there is none. -/
theorem C22_last_rise (r : Res F) (hr : r.index_u_ysat = none) (s : List F) (hne : s ≠ [])
    (hs : r.temporal.s2_y = s.map .fin) (h0 : ∀ x ∈ s, 0 ≤ x) :
    ∃ k : ℕ, (indexUysat r).1 = .ok (k : ℤ) ∧ k < s.length ∧ (k = 0 ∨ AboveTwo s k) ∧
      ∀ j, k < j → ¬ AboveTwo s j := by
  obtain ⟨k, h1, h2, h3, h4⟩ := satLoop_start s hne h0
  refine ⟨k, ?_, h2, h3, h4⟩
  simp only [indexUysat, hr, hs, h1]

/-- C22: on a curve with a single peak at position 2 or later the saturation index is the peak; a peak
at position 0 or 1 is reported as 0. -/
theorem C22_single_peak (r : Res F) (hr : r.index_u_ysat = none) (s : List F)
    (hs : r.temporal.s2_y = s.map .fin) (h0 : ∀ x ∈ s, 0 ≤ x) (p : ℕ) (hp : SinglePeak s p) :
    (indexUysat r).1 = .ok (if 2 ≤ p then (p : ℤ) else 0) := by
  obtain ⟨hlt, hup, hdown⟩ := hp
  have hne : s ≠ [] := fun h => by rw [h] at hlt; simp at hlt
  obtain ⟨k, h1, h2, h3, h4⟩ := C22_last_rise r hr s hne hs h0
  have get : ∀ i, i < s.length → ∃ x, s[i]? = some x := fun i hi => ⟨_, List.getElem?_eq_getElem hi⟩
  have after : ∀ j, p < j → ¬ AboveTwo s j := by
    rintro j hj ⟨h2j, a, b, c, ha, hb, -, hba, -⟩
    have := hdown (j - 1) b a (by omega) hb (by rw [Nat.sub_add_cancel (by omega)]; exact ha)
    exact absurd hba (not_lt.2 this)
  rw [h1]
  split
  · rename_i h2p
    have hat : AboveTwo s p := by
      obtain ⟨a, ha⟩ := get p hlt
      obtain ⟨b, hb⟩ := get (p - 1) (by omega)
      obtain ⟨c, hc⟩ := get (p - 2) (by omega)
      have e1 := hup (p - 1) b a (by omega) hb (by rw [Nat.sub_add_cancel (by omega)]; exact ha)
      have e2 := hup (p - 2) c b (by omega) hc
        (by rw [show p - 2 + 1 = p - 1 by omega]; exact hb)
      exact ⟨h2p, a, b, c, ha, hb, hc, e1, e2.trans e1⟩
    have hkp : k = p := by
      rcases Nat.lt_trichotomy k p with h | h | h
      · exact absurd hat (h4 p h)
      · exact h
      · rcases h3 with h3 | h3
        · omega
        · exact absurd h3 (after k h)
    rw [hkp]
  · rename_i h2p
    have : k = 0 := by
      rcases h3 with h3 | h3
      · exact h3
      · by_cases hk : p < k
        · exact absurd h3 (after k hk)
        · have := h3.1; omega
    rw [this]; rfl

theorem satLoop_range (s : List (Fl F)) (n : ℕ) (m : Fl F) (mi : ℕ) (hn : n ≤ s.length)
    (hmi : mi < s.length) (h2 : 2 ≤ s.length) :
    ∃ k, satLoop s n m mi = .ok k ∧ k < s.length := by
  induction n generalizing m mi with
  | zero => exact ⟨mi, rfl, hmi⟩
  | succ i ih =>
    have hi : i < s.length := by omega
    have hz : ((i : ℤ) - 1).natAbs < s.length := by omega
    unfold satLoop
    rw [Np.idx_of_some (List.getElem?_eq_getElem hi), Np.idx_of_some (List.getElem?_eq_getElem hz)]
    simp only
    repeat' split
    · exact ih _ _ (by omega) hi
    · exact ih _ _ (by omega) hi
    · exact ⟨mi, rfl, hmi⟩
    · exact ih _ _ (by omega) hmi

/-- C22: with at least two points the index is always inside the curve, whatever the values (NaN and
infinities included); no exception is raised. -/
theorem C22_in_range (r : Res F) (hr : r.index_u_ysat = none) (h2 : 2 ≤ r.temporal.s2_y.length) :
    ∃ k : ℕ, (indexUysat r).1 = .ok (k : ℤ) ∧ k < r.temporal.s2_y.length := by
  obtain ⟨k, h1, hk⟩ := satLoop_range r.temporal.s2_y _ (.fin 0) 0 le_rfl (by omega) h2
  refine ⟨k, ?_, hk⟩
  simp only [indexUysat, hr, h1]

/-- C22: a curve of one point gives 0 if the variance is `>= 0` and `IndexError` otherwise (negative or
NaN): the neighbour looked at is `s2_y[abs(0 - 1)] = s2_y[1]`. -/
theorem C22_one_point (r : Res F) (hr : r.index_u_ysat = none) (x : Fl F)
    (hs : r.temporal.s2_y = [x]) :
    (indexUysat r).1 = if Fl.le (.fin 0) x then .ok 0 else .error .indexError := by
  simp only [indexUysat, hr, hs]
  rw [show ([x] : List (Fl F)).length = 1 from rfl]
  unfold satLoop
  simp only [show Np.idx [x] ((0 : ℕ) : ℤ) = .ok x from rfl,
    show Np.idx [x] (((((0 : ℕ) : ℤ) - 1).natAbs : ℕ) : ℤ) = .error .indexError from rfl]
  by_cases h : Fl.le (.fin 0) x = true
  · simp only [h, if_true]; rfl
  · simp only [Bool.not_eq_true] at h
    simp only [h]; rfl

/-- C23 (part): a forced index other than 0 is the reported one, for every data set, and the saturation
capacity is read at that position (counted from the end if negative, `IndexError` if outside).  The
full claim, with the index 0, is false: `C23_forced_zero_ignored`. -/
theorem C23_forced_index_partial (d : Data1288 F) (a : Option F) (i : ℤ) (hi : i ≠ 0) :
    (indexUysat (Results.make d a (some i))).1 = .ok i ∧
    val uPSat (Results.make d a (some i)) = (Np.idx d.temporal.u_p i).map .fin := by
  have h : indexUysat (Results.make d a (some i)) = (.ok i, Results.make d a (some i)) := by
    simp only [indexUysat, Results.make, if_pos hi]
  refine ⟨by rw [h], ?_⟩
  unfold uPSat
  rw [val_bind stable_temporal (by stab)]
  show val _ _ = _
  rw [val_bind Stable.indexUysat (by stab), val, h]
  show val _ _ = _
  rw [val_bind (Stable.lift _) (by stab)]
  simp only [val_lift]
  show (Np.idx d.temporal.u_p i >>= _) = _
  cases Np.idx d.temporal.u_p i <;> rfl

/-- C23 fails for index 0: the forced index 0 is ignored and the detected one is reported instead,
whenever that is not 0. -/
theorem C23_forced_zero_ignored (d : Data1288 F) (a : Option F) :
    (indexUysat (Results.make d a (some 0))).1 = (indexUysat (Results.make d a none)).1 := by
  simp only [indexUysat, Results.make, ne_eq, not_true_eq_false, if_false]
  cases satLoop d.temporal.s2_y d.temporal.s2_y.length (.fin 0) 0 <;> rfl

/-! ### C24 -/

theorem stable_as {α : Type} {x : M F α} (h : Stable x) (f : α → Results.Value) :
    Stable (x.as f) := h.bind fun _ => Stable.pure _

theorem stable_read (q : LSQ ℝ) (a : Attr) : Stable (Results.read q a) := by
  cases a
  case s2q => exact Stable.pure _
  case index_start => exact stable_as (Stable.pure _) _
  case index_u_ysat => exact stable_as Stable.indexUysat _
  case index_sensitivity_max => exact stable_as stable_smax _
  case index_sensitivity_min => exact stable_as stable_smin _
  case R => exact stable_as (stable_R q) _
  case K => exact stable_as (stable_K q) _
  case inverse_K => exact stable_as (stable_inverseK q) _
  case QE => exact stable_as (stable_QE q) _
  case sigma_y_dark => exact stable_as (stable_sigmaYDark q) _
  case sigma_d => exact stable_as (stable_sigmaD q) _
  case u_p_min => exact stable_as (stable_uPMin q) _
  case u_p_min_area => exact stable_as (stable_perArea (stable_uPMin q)) _
  case u_e_min => exact stable_as (stable_uEMin q) _
  case u_e_min_area => exact stable_as (stable_perArea (stable_uEMin q)) _
  case u_p_sat => exact stable_as stable_uPSat _
  case u_p_sat_area => exact stable_as (stable_perArea stable_uPSat) _
  case u_e_sat => exact stable_as (stable_uESat q) _
  case u_e_sat_area => exact stable_as (stable_perArea (stable_uESat q)) _
  case SNR_max => exact stable_as (stable_SNRMax q) _
  case SNR_max_dB => exact stable_as (stable_SNRMaxDB q) _
  case SNR_max_bit => exact stable_as (stable_SNRMaxBit q) _
  case inverse_SNR_max => exact stable_as (stable_inverseSNRMax q) _
  case DR => exact stable_as (stable_DR q) _
  case DR_dB => exact stable_as (stable_DRDB q) _
  case index_linearity_min => exact stable_as stable_linMin _
  case index_linearity_max => exact stable_as stable_linMax _
  case linearity => exact stable_as stable_linearity _
  case LE_min => exact stable_as stable_LEMin _
  case LE_max => exact stable_as stable_LEMax _
  case u_I_var_DN => exact stable_as (stable_uIVarDN q) _
  case u_I_var => exact stable_as (stable_uIVar q) _
  case u_I_mean_DN => exact stable_as (stable_uIMeanDN q) _
  case u_I_mean => exact stable_as (stable_uIMean q) _
  case sigma_2_y_stack => exact stable_as (stable_sigma2YStack _) _
  case sigma_2_y_stack_dark => exact stable_as (stable_sigma2YStack _) _
  case s_2_y_measured => exact stable_as (stable_s2YMeasured _) _
  case s_2_y_measured_dark => exact stable_as (stable_s2YMeasured _) _
  case s_2_y => exact stable_as (stable_s2Y _) _
  case s_2_y_dark => exact stable_as (stable_s2Y _) _
  case s_2_y_cav => exact stable_as (stable_s2YCav _) _
  case s_2_y_cav_dark => exact stable_as (stable_s2YCav _) _
  case s_2_y_rav => exact stable_as (stable_s2YRav _) _
  case s_2_y_rav_dark => exact stable_as (stable_s2YRav _) _
  case s_2_y_col => exact stable_as (stable_s2YCol _) _
  case s_2_y_col_dark => exact stable_as (stable_s2YCol _) _
  case s_2_y_row => exact stable_as (stable_s2YRow _) _
  case s_2_y_row_dark => exact stable_as (stable_s2YRow _) _
  case s_2_y_pixel => exact stable_as (stable_s2YPixel _) _
  case s_2_y_pixel_dark => exact stable_as (stable_s2YPixel _) _
  case DSNU1288 => exact stable_as (stable_dsnu q (stable_s2Y _)) _
  case DSNU1288_DN => exact stable_as stable_DSNU1288DN _
  case DSNU1288_row => exact stable_as (stable_dsnu q (stable_s2YRow _)) _
  case DSNU1288_col => exact stable_as (stable_dsnu q (stable_s2YCol _)) _
  case DSNU1288_pixel => exact stable_as (stable_dsnu q (stable_s2YPixel _)) _
  case PRNU1288 => exact stable_as (stable_prnu stable_s2Y) _
  case PRNU1288_row => exact stable_as (stable_prnu stable_s2YRow) _
  case PRNU1288_col => exact stable_as (stable_prnu stable_s2YCol) _
  case PRNU1288_pixel => exact stable_as (stable_prnu stable_s2YPixel) _
  case histogram_PRNU => exact stable_as stable_histogramPRNU _
  case histogram_PRNU_accumulated => exact stable_as stable_histogramPRNUAccumulated _
  case histogram_DSNU => exact stable_as stable_histogramDSNU _
  case histogram_DSNU_accumulated => exact stable_as stable_histogramDSNUAccumulated _

/-- C24: after any sequence of attribute reads (also reads that raised), every attribute has the value,
or raises the exception, that it has on the object as it was before; the measured data and the pixel
area are unchanged. -/
theorem C24_reads_have_no_effect (q : LSQ ℝ) (l : List Attr) (a : Attr) (r : Res ℝ) :
    (Results.read q a (Results.readAll q l r)).1 = (Results.read q a r).1 ∧
    (Results.readAll q l r).temporal = r.temporal ∧
    (Results.readAll q l r).spatial = r.spatial ∧
    (Results.readAll q l r).pixel_area = r.pixel_area := by
  have key : ∀ (l : List Attr) (r : Res ℝ), Results.readAll q l r = r ∨
      Results.readAll q l r = touch r := by
    intro l
    induction l with
    | nil => exact fun r => .inl rfl
    | cons b l ih =>
      intro r
      show Results.readAll q l (Results.read q b r).2 = _ ∨ Results.readAll q l (Results.read q b r).2 = _
      rcases (stable_read q b r).1 with h | h <;> rw [h]
      · exact ih r
      · rcases ih (touch r) with h | h
        · exact .inr h
        · right; rw [h, touch_touch]
  rcases key l r with h | h <;> rw [h]
  · exact ⟨rfl, rfl, rfl, rfl⟩
  · exact ⟨(stable_read q a r).2, touch_fields r⟩

/-! ### cases meeting the hypotheses -/

/-- variances 1, 3, 2, 5, 6, 4: the peak at position 4 is found although the curve has a dip -/
def sampleSat : Res ℚ where
  temporal := ⟨[], [0, 10, 20, 30, 40, 50], [], [1, 3, 2, 5, 6, 4].map .fin, [], []⟩
  spatial := ⟨0, 0, ⟨1, 1, fun _ _ => 0, .fin 0, 1, 1, 1, .fin 0, .fin 0, .fin 0, .fin 0⟩,
    ⟨1, 1, fun _ _ => 0, .fin 0, 1, 1, 1, .fin 0, .fin 0, .fin 0, .fin 0⟩⟩
  pixel_area := none
  index_u_ysat := none

/-- C23 fails: with the index 0 forced on these data the reported index is 4. -/
theorem C23_forced_zero_counterexample :
    ∃ d : Data1288 ℚ, (indexUysat (Results.make d none (some 0))).1 = .ok 4 :=
  ⟨⟨1, 1, 1, sampleSat.temporal, sampleSat.spatial⟩, by decide +kernel⟩

example : (indexUysat sampleSat).1 = .ok 4 := by decide +kernel
example : (indexUysat { sampleSat with index_u_ysat := some 0 }).1 = .ok 4 := by decide +kernel
example : (indexUysat { sampleSat with index_u_ysat := some (-2) }).1 = .ok (-2) := by decide +kernel
example : AboveTwo ([1, 3, 2, 5, 6, 4] : List ℚ) 4 :=
  ⟨by omega, 6, 5, 2, rfl, rfl, rfl, by norm_num, by norm_num⟩
example : SinglePeak ([0, 2, 5, 9, 4, 4] : List ℚ) 3 := by
  refine ⟨by simp, ?_, ?_⟩
  · intro i a b hi ha hb
    interval_cases i <;> simp_all <;> subst_vars <;> norm_num
  · intro i a b hi ha hb
    have h6 : i + 1 < 6 := (List.getElem?_eq_some_iff.1 hb).1
    have : i < 5 := by omega
    interval_cases i <;> simp_all <;> subst_vars <;> norm_num

end Emva
