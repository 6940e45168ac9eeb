import Verif.Model.Compare
import Mathlib.Tactic.Linarith
import Mathlib.Tactic.Positivity
import Mathlib.Tactic.FieldSimp
import Mathlib.Tactic.NormNum

/-!
C45: `round_significant`.
-/
set_option autoImplicit false
namespace Emva
namespace Xml

theorem rint_err (x : ℝ) : |(rint x : ℝ) - x| ≤ 1 / 2 := by
  have h1 := Int.floor_le x
  have h2 := Int.lt_floor_add_one x
  rw [abs_le]
  unfold rint
  dsimp only
  split_ifs with ha hb hc
  · constructor <;> linarith
  · push_cast; constructor <;> linarith
  · constructor <;> linarith
  · push_cast; constructor <;> linarith

theorem rint_int (k : ℤ) : rint (k : ℝ) = k := by
  unfold rint
  rw [Int.floor_intCast]
  simp

theorem le_rint {k : ℤ} {x : ℝ} (h : (k : ℝ) ≤ x) : k ≤ rint x := by
  have hf : k ≤ ⌊x⌋ := Int.le_floor.2 h
  unfold rint
  dsimp only
  split_ifs <;> omega

theorem rint_le {k : ℤ} {x : ℝ} (h : x ≤ (k : ℝ)) : rint x ≤ k := by
  have h1 := Int.floor_le x
  have h3 : ⌊x⌋ ≤ k := by
    have : (⌊x⌋ : ℝ) ≤ k := h1.trans h
    exact_mod_cast this
  rcases h3.lt_or_eq with h4 | h4
  · unfold rint
    dsimp only
    split_ifs <;> omega
  · have hx : x = k := le_antisymm h (by rw [← h4]; exact h1)
    rw [hx, rint_int]

/-- the decimal exponent -/
theorem exponent_bounds {x : ℝ} (hx : x ≠ 0) :
    (10 : ℝ) ^ ⌊Real.logb 10 |x|⌋ ≤ |x| ∧ |x| < 10 ^ (⌊Real.logb 10 |x|⌋ + 1) := by
  have hp : 0 < |x| := abs_pos.2 hx
  have h10 : (1 : ℝ) < 10 := by norm_num
  constructor
  · rw [← Real.rpow_intCast, ← Real.le_logb_iff_rpow_le h10 hp]
    exact Int.floor_le _
  · rw [← Real.rpow_intCast, ← Real.logb_lt_iff_lt_rpow h10 hp]
    push_cast
    exact Int.lt_floor_add_one _

theorem exponent_unique {x : ℝ} {e : ℤ} (h1 : (10 : ℝ) ^ e ≤ |x|) (h2 : |x| < 10 ^ (e + 1)) :
    ⌊Real.logb 10 |x|⌋ = e := by
  have hp : 0 < |x| := lt_of_lt_of_le (by positivity) h1
  have h10 : (1 : ℝ) < 10 := by norm_num
  rw [Int.floor_eq_iff]
  constructor
  · rw [Real.le_logb_iff_rpow_le h10 hp, Real.rpow_intCast]; exact h1
  · rw [Real.logb_lt_iff_lt_rpow h10 hp]
    have := h2
    rw [← Real.rpow_intCast] at this
    push_cast at this
    exact this

/-- the rounded value of a number that is not zero -/
noncomputable def sigR (x : ℝ) (sig : ℤ) : ℝ := pyRound x (sig - ⌊Real.logb 10 |x|⌋ - 1)

theorem pow_split (e sig : ℤ) : (10 : ℝ) ^ e * 10 ^ (sig - e - 1) = 10 ^ (sig - 1) := by
  rw [← zpow_add₀ (by norm_num)]; congr 1; ring

/-- the integer mantissa has between `sig` and `sig+1` digits -/
theorem mantissa {x : ℝ} (hx : x ≠ 0) {sig : ℤ} (hs : 1 ≤ sig) :
    let m := rint (x * 10 ^ (sig - ⌊Real.logb 10 |x|⌋ - 1))
    (0 < x → (10 : ℤ) ^ (sig - 1).toNat ≤ m ∧ m ≤ 10 ^ sig.toNat) ∧
    (x < 0 → -(10 : ℤ) ^ sig.toNat ≤ m ∧ m ≤ -(10 ^ (sig - 1).toNat)) := by
  intro m
  obtain ⟨h1, h2⟩ := exponent_bounds hx
  obtain ⟨e, he⟩ : ∃ e, e = ⌊Real.logb 10 |x|⌋ := ⟨_, rfl⟩
  rw [← he] at h1 h2
  have hn : (0 : ℝ) < 10 ^ (sig - e - 1) := by positivity
  have l1 : (10 : ℝ) ^ (sig - 1) ≤ |x| * 10 ^ (sig - e - 1) := by
    rw [← pow_split e sig]; exact mul_le_mul_of_nonneg_right h1 hn.le
  have l2 : |x| * 10 ^ (sig - e - 1) ≤ (10 : ℝ) ^ sig := by
    have : (10 : ℝ) ^ sig = 10 ^ (e + 1) * 10 ^ (sig - e - 1) := by
      rw [← zpow_add₀ (by norm_num)]; congr 1; ring
    rw [this]; exact mul_le_mul_of_nonneg_right h2.le hn.le
  have c1 : (((10 : ℤ) ^ (sig - 1).toNat : ℤ) : ℝ) = (10 : ℝ) ^ (sig - 1) := by
    push_cast
    rw [← zpow_natCast, Int.toNat_of_nonneg (by omega)]
  have c2 : (((10 : ℤ) ^ sig.toNat : ℤ) : ℝ) = (10 : ℝ) ^ sig := by
    push_cast
    rw [← zpow_natCast, Int.toNat_of_nonneg (by omega)]
  have hm : m = rint (x * 10 ^ (sig - e - 1)) := by rw [he]
  rw [hm]
  constructor
  · intro hpos
    rw [abs_of_pos hpos] at l1 l2
    exact ⟨le_rint (by rw [c1]; exact l1), rint_le (by rw [c2]; exact l2)⟩
  · intro hneg
    rw [abs_of_neg hneg] at l1 l2
    refine ⟨le_rint ?_, rint_le ?_⟩
    · rw [Int.cast_neg, c2]; linarith
    · rw [Int.cast_neg, c1]; linarith

theorem sigR_err {x : ℝ} (hx : x ≠ 0) (sig : ℤ) : |sigR x sig - x| ≤ 1 / 2 * 10 ^ (1 - sig) * |x| := by
  obtain ⟨h1, -⟩ := exponent_bounds hx
  unfold sigR pyRound
  generalize ⌊Real.logb 10 |x|⌋ = e at *
  have hn : (0 : ℝ) < 10 ^ (sig - e - 1) := by positivity
  have key := rint_err (x * 10 ^ (sig - e - 1))
  generalize hr : (rint (x * 10 ^ (sig - e - 1)) : ℝ) = r at *
  have e1 : r / 10 ^ (sig - e - 1) - x = (r - x * 10 ^ (sig - e - 1)) / 10 ^ (sig - e - 1) := by
    field_simp
  rw [e1, abs_div, abs_of_pos hn, div_le_iff₀ hn]
  refine key.trans ?_
  have h0 : (0 : ℝ) ≤ 1 / 2 * 10 ^ (1 - sig) := by positivity
  have e2 : (1 : ℝ) / 2 = 1 / 2 * 10 ^ (1 - sig) * 10 ^ e * 10 ^ (sig - e - 1) := by
    rw [mul_assoc, mul_assoc, ← zpow_add₀ (by norm_num), ← zpow_add₀ (by norm_num)]
    rw [show 1 - sig + (e + (sig - e - 1)) = 0 by ring, zpow_zero, mul_one]
  exact e2.le.trans (mul_le_mul_of_nonneg_right (mul_le_mul_of_nonneg_left h1 h0) hn.le)

theorem sigR_pos {x : ℝ} (hx : 0 < x) {sig : ℤ} (hs : 1 ≤ sig) : 0 < sigR x sig := by
  have := ((mantissa hx.ne' hs).1 hx).1
  have h1 : (1 : ℤ) ≤ 10 ^ (sig - 1).toNat := one_le_pow₀ (by norm_num)
  refine div_pos ?_ (by positivity)
  have : (1 : ℤ) ≤ rint (x * 10 ^ (sig - ⌊Real.logb 10 |x|⌋ - 1)) := h1.trans this
  exact_mod_cast this

theorem sigR_neg {x : ℝ} (hx : x < 0) {sig : ℤ} (hs : 1 ≤ sig) : sigR x sig < 0 := by
  have := ((mantissa hx.ne hs).2 hx).2
  have h1 : (1 : ℤ) ≤ 10 ^ (sig - 1).toNat := one_le_pow₀ (by norm_num)
  refine div_neg_of_neg_of_pos ?_ (by positivity)
  have : rint (x * 10 ^ (sig - ⌊Real.logb 10 |x|⌋ - 1)) ≤ -1 := by linarith
  have h2 : rint (x * 10 ^ (sig - ⌊Real.logb 10 |x|⌋ - 1)) < 0 := by omega
  exact_mod_cast h2

theorem sigR_idem {x : ℝ} (hx : x ≠ 0) {sig : ℤ} (hs : 1 ≤ sig) : sigR (sigR x sig) sig = sigR x sig := by
  have hm := mantissa hx hs
  obtain ⟨e, he⟩ : ∃ e, e = ⌊Real.logb 10 |x|⌋ := ⟨_, rfl⟩
  obtain ⟨m, hmd⟩ : ∃ m, m = rint (x * 10 ^ (sig - e - 1)) := ⟨_, rfl⟩
  have hr : sigR x sig = m / 10 ^ (sig - e - 1) := by rw [sigR, pyRound, ← he, ← hmd]
  rw [← he, ← hmd] at hm
  have hbound : (10 : ℤ) ^ (sig - 1).toNat ≤ |m| ∧ |m| ≤ 10 ^ sig.toNat := by
    have h1 : (1 : ℤ) ≤ 10 ^ (sig - 1).toNat := one_le_pow₀ (by norm_num)
    rcases lt_or_gt_of_ne hx with hn | hp
    · obtain ⟨a, b⟩ := hm.2 hn
      rw [abs_of_neg (by linarith)]; constructor <;> linarith
    · obtain ⟨a, b⟩ := hm.1 hp
      rw [abs_of_pos (by linarith)]; exact ⟨a, b⟩
  have c1 : ((10 : ℝ)) ^ (sig - 1) ≤ |(m : ℝ)| := by
    have : (((10 : ℤ) ^ (sig - 1).toNat : ℤ) : ℝ) ≤ ((|m| : ℤ) : ℝ) := by exact_mod_cast hbound.1
    push_cast at this
    rwa [← zpow_natCast, Int.toNat_of_nonneg (by omega)] at this
  have hnp : (0 : ℝ) < 10 ^ (sig - e - 1) := by positivity
  have habs : |sigR x sig| = |(m : ℝ)| / 10 ^ (sig - e - 1) := by rw [hr, abs_div, abs_of_pos hnp]
  rcases hbound.2.lt_or_eq with hlt | heq
  · -- same exponent
    have c2 : |(m : ℝ)| < (10 : ℝ) ^ sig := by
      have : ((|m| : ℤ) : ℝ) < (((10 : ℤ) ^ sig.toNat : ℤ) : ℝ) := by exact_mod_cast hlt
      push_cast at this
      rwa [← zpow_natCast, Int.toNat_of_nonneg (by omega)] at this
    have hexp : ⌊Real.logb 10 |sigR x sig|⌋ = e := by
      refine exponent_unique ?_ ?_
      · rw [habs, le_div_iff₀ hnp, pow_split]; exact c1
      · rw [habs, div_lt_iff₀ hnp, ← zpow_add₀ (by norm_num)]
        rw [show e + 1 + (sig - e - 1) = sig by ring]; exact c2
    conv_lhs => rw [sigR, hexp, pyRound]
    rw [hr]
    have : (m : ℝ) / 10 ^ (sig - e - 1) * 10 ^ (sig - e - 1) = m := by field_simp
    rw [this, rint_int]
  · -- rounded up to the next power of ten
    have c2 : |(m : ℝ)| = (10 : ℝ) ^ sig := by
      have : ((|m| : ℤ) : ℝ) = (((10 : ℤ) ^ sig.toNat : ℤ) : ℝ) := by exact_mod_cast heq
      push_cast at this
      rwa [← zpow_natCast, Int.toNat_of_nonneg (by omega)] at this
    have habs' : |sigR x sig| = 10 ^ (e + 1) := by
      rw [habs, c2, div_eq_iff hnp.ne', ← zpow_add₀ (by norm_num)]
      congr 1; ring
    have hexp : ⌊Real.logb 10 |sigR x sig|⌋ = e + 1 := by
      refine exponent_unique habs'.ge ?_
      rw [habs']
      exact zpow_lt_zpow_right₀ (by norm_num) (by omega)
    obtain ⟨k, hk⟩ : ∃ k : ℤ, m = k * 10 := by
      have hs' : sig.toNat = (sig - 1).toNat + 1 := by omega
      rw [hs', pow_succ] at heq
      rcases abs_choice m with h | h
      · exact ⟨_, by rw [← heq, h]⟩
      · refine ⟨-(10 ^ (sig - 1).toNat), ?_⟩
        have : m = -|m| := by rw [h]; ring
        rw [this, heq]; ring
    conv_lhs => rw [sigR, hexp, pyRound]
    rw [hr, hk]
    have hz : (10 : ℝ) ^ (sig - e - 1) = 10 ^ (sig - (e + 1) - 1) * 10 := by
      rw [← zpow_add_one₀ (by norm_num)]; congr 1; ring
    have hq : (0 : ℝ) < 10 ^ (sig - (e + 1) - 1) := by positivity
    have : ((k * 10 : ℤ) : ℝ) / 10 ^ (sig - e - 1) * 10 ^ (sig - (e + 1) - 1) = k := by
      rw [hz]; push_cast; field_simp
    rw [this, rint_int, hz]; push_cast; field_simp

end Xml

open Xml

/-- C45: for every finite `v` and `sig >= 1` (with a numpy that has `np.int`) the rounded value is finite,
has the sign of `v`, a relative error of at most `0.5 * 10^(1-sig)`, and rounding again changes
nothing. -/
theorem C45_round_significant (v : ℝ) (sig : ℤ) (hs : 1 ≤ sig) :
    ∃ r, roundSignificant true (.fin v) sig = .ok (.fin r) ∧ (0 < r ↔ 0 < v) ∧ (r < 0 ↔ v < 0) ∧
      (r = 0 ↔ v = 0) ∧ |r - v| ≤ 1 / 2 * 10 ^ (1 - sig) * |v| ∧
      roundSignificant true (.fin r) sig = .ok (.fin r) := by
  by_cases hv : v = 0
  · subst hv
    refine ⟨0, ?_, by simp, by simp, by simp, by simp, ?_⟩ <;> simp [roundSignificant, Fl.eqb]
  have hne : ∀ x : ℝ, x ≠ 0 → roundSignificant true (.fin x) sig = .ok (.fin (sigR x sig)) := by
    intro x hx
    simp [roundSignificant, Fl.eqb, hx, sigR]
  have hsign : (0 < v ∧ 0 < sigR v sig) ∨ (v < 0 ∧ sigR v sig < 0) := by
    rcases lt_or_gt_of_ne hv with h | h
    · exact .inr ⟨h, sigR_neg h hs⟩
    · exact .inl ⟨h, sigR_pos h hs⟩
  refine ⟨sigR v sig, hne v hv, ?_, ?_, ?_, sigR_err hv sig, ?_⟩
  · rcases hsign with ⟨a, b⟩ | ⟨a, b⟩
    · exact ⟨fun _ => a, fun _ => b⟩
    · exact ⟨fun h => absurd h b.not_gt, fun h => absurd h a.not_gt⟩
  · rcases hsign with ⟨a, b⟩ | ⟨a, b⟩
    · exact ⟨fun h => absurd h b.not_gt, fun h => absurd h a.not_gt⟩
    · exact ⟨fun _ => a, fun _ => b⟩
  · rcases hsign with ⟨a, b⟩ | ⟨a, b⟩
    · exact ⟨fun h => absurd h b.ne', fun h => absurd h a.ne'⟩
    · exact ⟨fun h => absurd h b.ne, fun h => absurd h a.ne⟩
  · rw [hne _ ?_, sigR_idem hv hs]
    rcases hsign with ⟨a, b⟩ | ⟨a, b⟩
    · exact b.ne'
    · exact b.ne

/-- C45: the rounded value has at most `sig` significant digits: it is an integer of absolute value at
most `10^sig` times a power of ten. -/
theorem C45_digits (v : ℝ) (hv : v ≠ 0) (sig : ℤ) (hs : 1 ≤ sig) :
    ∃ m n : ℤ, roundSignificant true (.fin v) sig = .ok (.fin ((m : ℝ) / 10 ^ n)) ∧
      |m| ≤ 10 ^ sig.toNat := by
  refine ⟨rint (v * 10 ^ (sig - ⌊Real.logb 10 |v|⌋ - 1)), sig - ⌊Real.logb 10 |v|⌋ - 1,
    by simp [roundSignificant, Fl.eqb, hv, pyRound], ?_⟩
  have hm := mantissa hv hs
  have h1 : (1 : ℤ) ≤ 10 ^ (sig - 1).toNat := one_le_pow₀ (by norm_num)
  rcases lt_or_gt_of_ne hv with hn | hp
  · obtain ⟨a, b⟩ := hm.2 hn
    rw [abs_of_neg (by linarith)]; linarith
  · obtain ⟨a, b⟩ := hm.1 hp
    rw [abs_of_pos (by linarith)]; exact b

/-- C45: exactly the numbers that are not finite are rejected. -/
theorem C45_rejected (v : Fl ℝ) (sig : ℤ) (e : PyErr) : Xml.roundSignificant true v sig = .error e ↔
    (v = .nan ∧ e = .valueError) ∨ (∃ b, v = .inf b) ∧ e = .overflowError := by
  cases v with
  | nan => simp [Xml.roundSignificant, Fl.eqb, eq_comm]
  | inf b => simp [Xml.roundSignificant, Fl.eqb, eq_comm]
  | fin x =>
    unfold Xml.roundSignificant
    split <;> simp

/-- C45 fails with numpy 1.24 or later, where `np.int` does not exist: every argument but zero raises
`AttributeError`. -/
theorem C45_new_numpy_counterexample (v : Fl ℝ) (sig : ℤ) :
    (roundSignificant false v sig = .ok (.fin 0) ∧ v = .fin 0) ∨
      (v ≠ .fin 0 ∧ roundSignificant false v sig = .error .attributeError) := by
  cases v with
  | nan => right; simp [roundSignificant, Fl.eqb]
  | inf b => right; simp [roundSignificant, Fl.eqb]
  | fin x =>
    by_cases hx : x = 0
    · left; simp [roundSignificant, Fl.eqb, hx]
    · right; simp [roundSignificant, Fl.eqb, hx]

/-! ### a case -/

/-- 1234 to two digits is 1200 -/
example : roundSignificant true (.fin 1234) 2 = .ok (.fin 1200) := by
  have he : ⌊Real.logb 10 |(1234 : ℝ)|⌋ = 3 := by
    refine exponent_unique ?_ ?_ <;> rw [abs_of_pos (by norm_num)] <;> norm_num
  have hf : ⌊(1234 : ℝ) * 10 ^ (-2 : ℤ)⌋ = 12 := by
    rw [Int.floor_eq_iff]; constructor <;> norm_num
  have hr : rint ((1234 : ℝ) * 10 ^ (-2 : ℤ)) = 12 := by
    unfold rint
    rw [hf]
    rw [if_pos (by norm_num)]
  have : roundSignificant true (.fin 1234) 2 = .ok (.fin (pyRound 1234 (2 - ⌊Real.logb 10 |(1234 : ℝ)|⌋ - 1))) := by
    simp [roundSignificant, Fl.eqb]
  rw [this, he, pyRound, show (2 : ℤ) - 3 - 1 = -2 by norm_num, hr]
  norm_num

end Emva
