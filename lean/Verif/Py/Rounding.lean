import Mathlib.Algebra.Order.Archimedean.Real.Basic
import Mathlib.Data.Int.Log
import Mathlib.Algebra.Order.Round
import Mathlib.Algebra.Ring.Int.Parity
import Mathlib.Algebra.BigOperators.Group.List.Basic
import Mathlib.Data.List.Perm.Basic
import Mathlib.Tactic.Linarith
import Mathlib.Tactic.Positivity
import Mathlib.Tactic.FieldSimp
import Mathlib.Tactic.Ring
import Mathlib.Tactic.NormNum

/-!
Floating point arithmetic: the result of an operation is the rounded exact result.

`Rounding u` is what the rounding of an arithmetic satisfies: relative error at most `u`, integers up to 2^53 exact,
rounded numbers unchanged. `binary64` is the rounding of float64 (53 digits, to nearest, ties to even) without overflow and
underflow, where `u = 2^-53`.
-/
set_option autoImplicit false
namespace Emva

/-- A rounding of the results of float operations, e.g. process/data.py lines 185-187. -/
structure Rounding (u : ℝ) where
  rnd : ℝ → ℝ
  err : ∀ x, |rnd x - x| ≤ u * |x|
  int : ∀ n : ℤ, |n| ≤ 2 ^ 53 → rnd n = n
  idem : ∀ x, rnd (rnd x) = rnd x

namespace Rounding

/-- to the nearest integer, in the middle to the even one.
Used for the floats of process/data.py lines 185-187. -/
noncomputable def nearestEven (x : ℝ) : ℤ :=
  if 2 * Int.fract x < 1 then ⌊x⌋
  else if 1 < 2 * Int.fract x then ⌊x⌋ + 1
  else if Even ⌊x⌋ then ⌊x⌋ else ⌊x⌋ + 1

theorem nearestEven_err (x : ℝ) : |(nearestEven x : ℝ) - x| ≤ 1 / 2 := by
  have h1 := Int.fract_nonneg x
  have h2 := Int.fract_lt_one x
  have h3 : (⌊x⌋ : ℝ) = x - Int.fract x := by rw [Int.fract]; ring
  unfold nearestEven
  rw [abs_le]
  split
  · constructor <;> rw [h3] <;> linarith
  · split
    · push_cast
      constructor <;> rw [h3] <;> linarith
    · split
      · constructor <;> rw [h3] <;> linarith
      · push_cast
        constructor <;> rw [h3] <;> linarith

theorem nearestEven_int (n : ℤ) : nearestEven n = n := by
  simp [nearestEven]

/-- the distance of the numbers with 53 digits near `x`.
Used for the floats of process/data.py lines 185-187. -/
noncomputable def ulp (x : ℝ) : ℝ := 2 ^ (Int.log 2 |x| - 52)

/-- The float64 nearest to a number, e.g. process/data.py lines 185-187. -/
noncomputable def b64 (x : ℝ) : ℝ := if x = 0 then 0 else nearestEven (x / ulp x) * ulp x

theorem ulp_pos (x : ℝ) : 0 < ulp x := by unfold ulp; exact zpow_pos (by norm_num) _

theorem b64_digits (k j : ℤ) (hk : |k| ≤ 2 ^ 53) : b64 (k * 2 ^ j) = k * 2 ^ j := by
  unfold b64
  split
  · next h => exact h.symm
  · next h =>
    have hk0 : k ≠ 0 := by
      rintro rfl
      simp at h
    have h2 : (0 : ℝ) < 2 ^ j := zpow_pos (by norm_num) _
    have hpos : 0 < |(k : ℝ) * 2 ^ j| := abs_pos.2 h
    have e1 := Int.zpow_log_le_self (b := 2) one_lt_two hpos
    set e := Int.log 2 |(k : ℝ) * 2 ^ j| with he
    have habs : |(k : ℝ) * 2 ^ j| = |(k : ℝ)| * 2 ^ j := by rw [abs_mul, abs_of_pos h2]
    -- the exponent is at most j + 53, and j + 53 only for 2^53
    have hkR : |(k : ℝ)| ≤ 2 ^ (53 : ℤ) := by
      have : ((|k| : ℤ) : ℝ) ≤ ((2 ^ 53 : ℤ) : ℝ) := by exact_mod_cast hk
      rw [Int.cast_abs] at this
      refine this.trans (le_of_eq ?_)
      norm_num
    have hle : (2 : ℝ) ^ e ≤ 2 ^ (53 + j) := by
      push_cast at e1
      refine e1.trans ?_
      rw [habs, zpow_add₀ (by norm_num)]
      exact mul_le_mul_of_nonneg_right hkR h2.le
    have hej : e ≤ 53 + j := (zpow_le_zpow_iff_right₀ (by norm_num : (1 : ℝ) < 2)).1 hle
    -- a multiple of the distance
    obtain ⟨n, hn⟩ : ∃ n : ℤ, (k : ℝ) * 2 ^ j / ulp (k * 2 ^ j) = n := by
      unfold ulp
      rw [← he]
      by_cases hc : e ≤ 52 + j
      · refine ⟨k * 2 ^ (52 + j - e).toNat, ?_⟩
        have : ((52 + j - e).toNat : ℤ) = 52 + j - e := Int.toNat_of_nonneg (by omega)
        push_cast
        rw [← zpow_natCast, this, mul_div_assoc, ← zpow_sub₀ (by norm_num)]
        congr 2
        ring
      · have hee : e = 53 + j := by omega
        have hk2 : |(k : ℝ)| = 2 ^ (53 : ℤ) := by
          refine le_antisymm hkR ?_
          push_cast at e1
          rw [hee, habs, zpow_add₀ (by norm_num)] at e1
          exact le_of_mul_le_mul_right e1 h2
        have hk3 : |k| = 2 ^ 53 := by
          have : ((|k| : ℤ) : ℝ) = ((2 ^ 53 : ℤ) : ℝ) := by
            rw [Int.cast_abs, hk2]
            norm_num
          exact_mod_cast this
        have hdiv : ∃ m, k = 2 * m := by
          rcases abs_eq (by positivity : (0 : ℤ) ≤ 2 ^ 53) |>.1 hk3 with h | h
          · exact ⟨2 ^ 52, by rw [h]; norm_num⟩
          · exact ⟨-2 ^ 52, by rw [h]; norm_num⟩
        obtain ⟨m, hm⟩ := hdiv
        refine ⟨m, ?_⟩
        rw [hee, hm, show 53 + j - 52 = j + 1 by ring, zpow_add_one₀ (by norm_num)]
        push_cast
        field_simp
    rw [hn, nearestEven_int, ← hn, div_mul_cancel₀ _ (ulp_pos _).ne']

theorem nearestEven_eq {x : ℝ} {m : ℤ} (h : |x - m| < 1 / 2) : nearestEven x = m := by
  have h1 := nearestEven_err x
  have h2 : |((nearestEven x - m : ℤ) : ℝ)| < 1 := by
    have := abs_add_le ((nearestEven x : ℝ) - x) (x - m)
    rw [sub_add_sub_cancel] at this
    push_cast
    linarith
  have h3 : |nearestEven x - m| < 1 := by exact_mod_cast h2
  rw [Int.abs_lt_one_iff] at h3
  omega

/-- to find the rounded number: the exponent and the integer next to the quotient -/
theorem b64_eq {x : ℝ} (e m : ℤ) (h1 : (2 : ℝ) ^ e ≤ |x|) (h2 : |x| < 2 ^ (e + 1)) (h : |x / 2 ^ (e - 52) - m| < 1 / 2) :
    b64 x = m * 2 ^ (e - 52) := by
  have hx : 0 < |x| := lt_of_lt_of_le (zpow_pos (by norm_num) _) h1
  have he : Int.log 2 |x| = e := by
    refine le_antisymm ?_ ?_
    · have : Int.log 2 |x| < e + 1 := by
        refine (Int.lt_zpow_iff_log_lt one_lt_two hx).1 ?_
        push_cast
        exact h2
      omega
    · refine (Int.zpow_le_iff_le_log one_lt_two hx).1 ?_
      push_cast
      exact h1
  rw [b64, if_neg (abs_pos.1 hx), ulp, he, nearestEven_eq h]

/-- the rounding of float64. Used for the floats of process/data.py lines 185-187. -/
noncomputable def binary64 : Rounding (2 ^ (-53 : ℤ)) where
  rnd := b64
  err x := by
    by_cases h : x = 0
    · simp [h, b64]
    · have hu := ulp_pos x
      have e1 := Int.zpow_log_le_self (b := 2) one_lt_two (abs_pos.2 h)
      push_cast at e1
      have e : b64 x - x = (nearestEven (x / ulp x) - x / ulp x) * ulp x := by
        rw [b64, if_neg h, sub_mul, div_mul_cancel₀ _ hu.ne']
      rw [e, abs_mul, abs_of_pos hu]
      have h1 := mul_le_mul_of_nonneg_right (nearestEven_err (x / ulp x)) hu.le
      refine h1.trans ?_
      have : 1 / 2 * ulp x = 2 ^ (-53 : ℤ) * 2 ^ Int.log 2 |x| := by
        rw [ulp, show (1 / 2 : ℝ) = 2 ^ (-1 : ℤ) by norm_num, ← zpow_add₀ (by norm_num), ← zpow_add₀ (by norm_num)]
        congr 1
        ring
      rw [this]
      exact mul_le_mul_of_nonneg_left e1 (by positivity)
  int n hn := by
    have := b64_digits n 0 hn
    simpa using this
  idem x := by
    by_cases h : x = 0
    · simp [h, b64]
    · have hu := ulp_pos x
      rw [show b64 x = nearestEven (x / ulp x) * 2 ^ (Int.log 2 |x| - 52) by rw [b64, if_neg h, ulp]]
      refine b64_digits _ _ ?_
      -- the quotient is less than 2^53
      have e2 := Int.lt_zpow_succ_log_self (b := 2) one_lt_two |x|
      push_cast at e2
      have hq : |x / ulp x| < 2 ^ (53 : ℤ) := by
        rw [abs_div, abs_of_pos hu, div_lt_iff₀ hu, ulp, ← zpow_add₀ (by norm_num)]
        refine lt_of_lt_of_eq e2 ?_
        congr 1
        ring
      have hn := nearestEven_err (x / ulp x)
      have : |(nearestEven (x / ulp x) : ℝ)| < 2 ^ 53 + 1 := by
        have h1 : |(nearestEven (x / ulp x) : ℝ)| ≤ |(nearestEven (x / ulp x) : ℝ) - x / ulp x| + |x / ulp x| := by
          have := abs_add_le ((nearestEven (x / ulp x) : ℝ) - x / ulp x) (x / ulp x)
          simpa using this
        have h2 : (2 : ℝ) ^ (53 : ℤ) = 2 ^ 53 := by norm_cast
        rw [h2] at hq
        linarith
      have : |nearestEven (x / ulp x)| < 2 ^ 53 + 1 := by exact_mod_cast this
      omega

variable {u : ℝ} (R : Rounding u)

include R in
theorem u_nonneg : 0 ≤ u := by
  have := (abs_nonneg _).trans (R.err 1)
  simpa using this

theorem zero : R.rnd 0 = 0 := by
  have := R.int 0 (by norm_num)
  simpa using this

theorem nat (n : ℕ) (h : n ≤ 2 ^ 53) : R.rnd n = n := by
  have := R.int n (by rw [Int.natCast_nonneg n |> abs_of_nonneg]; exact_mod_cast h)
  simpa using this

theorem abs_le (x : ℝ) : |R.rnd x| ≤ (1 + u) * |x| := by
  have := R.err x
  have h := abs_add_le (R.rnd x - x) x
  rw [sub_add_cancel] at h
  linarith

end Rounding

/-- `s` is a sum of the numbers `l` in floating point arithmetic, in some order and grouping; no number takes part in more
than `d` additions. Used for process/routines.py line 62 and process/results.py lines 548-552. -/
inductive SumOf {u : ℝ} (R : Rounding u) : List ℝ → ℝ → ℕ → Prop
  | nil : SumOf R [] 0 0
  | one (x : ℝ) : SumOf R [x] x 0
  | add {l l' : List ℝ} {s s' : ℝ} {d : ℕ} : SumOf R l s d → SumOf R l' s' d → SumOf R (l ++ l') (R.rnd (s + s')) (d + 1)
  | perm {l l' : List ℝ} {s : ℝ} {d : ℕ} : SumOf R l s d → l.Perm l' → SumOf R l' s d
  | depth {l : List ℝ} {s : ℝ} {d d' : ℕ} : SumOf R l s d → d ≤ d' → SumOf R l s d'

/-- A summation: `np.sum` of an array of floats (the order is not specified by numpy), with a bound on the number of
additions for each length.
Used for process/routines.py line 62 and process/results.py lines 548-552. -/
structure RSum {u : ℝ} (R : Rounding u) where
  sum : List ℝ → ℝ
  depth : ℕ → ℕ
  spec : ∀ l, SumOf R l (sum l) (depth l.length)

namespace SumOf
variable {u : ℝ} {R : Rounding u}

/-- integers are summed exactly as long as they are below 2^53 in total -/
theorem exact {l : List ℝ} {s : ℝ} {d : ℕ} (h : SumOf R l s d) :
    ∀ z : List ℤ, l = z.map (fun n : ℤ => (n : ℝ)) → (z.map fun n => |n|).sum ≤ 2 ^ 53 → s = ((z.sum : ℤ) : ℝ) := by
  have habs : ∀ z : List ℤ, |z.sum| ≤ (z.map fun n => |n|).sum := fun z => by
    induction z with
    | nil => simp
    | cons a z ih =>
      rw [List.sum_cons, List.map_cons, List.sum_cons]
      exact (abs_add_le _ _).trans (by linarith)
  have hnn : ∀ z : List ℤ, 0 ≤ (z.map fun n => |n|).sum := fun z => (abs_nonneg _).trans (habs z)
  induction h with
  | nil =>
    intro z hz _
    have : z = [] := by simpa using hz.symm
    simp [this]
  | one x =>
    intro z hz _
    cases z with
    | nil => simp at hz
    | cons a z =>
      have h := List.cons.inj hz
      have : z = [] := by simpa using h.2.symm
      simp [this, h.1]
  | @add l l' s s' d _ _ ih ih' =>
    intro z hz hb
    obtain ⟨z1, z2, rfl, h1, h2⟩ := List.map_eq_append_iff.1 hz.symm
    rw [List.map_append, List.sum_append] at hb
    have := hnn z1
    have := hnn z2
    rw [ih z1 h1.symm (by linarith), ih' z2 h2.symm (by linarith), ← Int.cast_add, R.int, List.sum_append]
    refine (abs_add_le _ _).trans ?_
    have := habs z1
    have := habs z2
    linarith
  | @perm l l' s d _ hp ih =>
    intro z hz hb
    rw [hz] at hp
    obtain ⟨z', hz', e⟩ : ∃ z' : List ℤ, z'.Perm z ∧ l = z'.map (fun n : ℤ => (n : ℝ)) := by
      have hz' : z.map (fun n : ℤ => (n : ℝ)) |>.Perm l := hp.symm
      refine ⟨l.map fun x => ⌊x⌋, ?_, ?_⟩
      · have := hz'.map fun x : ℝ => ⌊x⌋
        rw [List.map_map] at this
        have e : z.map ((fun x : ℝ => ⌊x⌋) ∘ fun n : ℤ => (n : ℝ)) = z := by
          conv_rhs => rw [← List.map_id z]
          exact List.map_congr_left fun n _ => by simp
        rw [e] at this
        exact this.symm
      · rw [List.map_map]
        conv_lhs => rw [← List.map_id l]
        refine List.map_congr_left fun x hx => ?_
        obtain ⟨n, -, rfl⟩ := List.mem_map.1 (hp.mem_iff.1 hx)
        simp
    rw [ih z' e (by rw [(hz'.map _).sum_eq]; exact hb), hz'.sum_eq]
  | depth _ _ ih => exact ih

/-- the error of a sum -/
theorem err {l : List ℝ} {s : ℝ} {d : ℕ} (h : SumOf R l s d) :
    |s - l.sum| ≤ ((1 + u) ^ d - 1) * (l.map fun x => |x|).sum := by
  have hu := R.u_nonneg
  have habs : ∀ z : List ℝ, |z.sum| ≤ (z.map fun n => |n|).sum := fun z => by
    induction z with
    | nil => simp
    | cons a z ih =>
      rw [List.sum_cons, List.map_cons, List.sum_cons]
      exact (abs_add_le _ _).trans (by linarith)
  have hnn : ∀ z : List ℝ, 0 ≤ (z.map fun n => |n|).sum := fun z => (abs_nonneg _).trans (habs z)
  induction h with
  | nil => simp
  | one x => simp
  | @add l l' s s' d _ _ ih ih' =>
    have h1 := R.err (s + s')
    have hp : 1 ≤ (1 + u) ^ d := one_le_pow₀ (by linarith)
    rw [List.sum_append, List.map_append, List.sum_append]
    set A := (l.map fun x => |x|).sum
    set B := (l'.map fun x => |x|).sum
    have a1 : |s + s' - (l.sum + l'.sum)| ≤ ((1 + u) ^ d - 1) * (A + B) := by
      have := abs_add_le (s - l.sum) (s' - l'.sum)
      rw [show s + s' - (l.sum + l'.sum) = (s - l.sum) + (s' - l'.sum) by ring]
      linarith
    have a2 : |s + s'| ≤ (1 + u) ^ d * (A + B) := by
      have h2 : |l.sum + l'.sum| ≤ A + B := (abs_add_le _ _).trans (add_le_add (habs l) (habs l'))
      have h3 := abs_add_le (s + s' - (l.sum + l'.sum)) (l.sum + l'.sum)
      rw [sub_add_cancel] at h3
      linarith
    have a3 := abs_add_le (R.rnd (s + s') - (s + s')) (s + s' - (l.sum + l'.sum))
    rw [sub_add_sub_cancel] at a3
    have a4 : u * |s + s'| ≤ u * ((1 + u) ^ d * (A + B)) := mul_le_mul_of_nonneg_left a2 hu
    rw [pow_succ]
    nlinarith
  | @perm l l' s d _ hp ih =>
    rw [← hp.sum_eq, ← (hp.map _).sum_eq]
    exact ih
  | @depth l s d d' _ hd ih =>
    refine ih.trans (mul_le_mul_of_nonneg_right ?_ (hnn l))
    have : (1 + u) ^ d ≤ (1 + u) ^ d' := pow_le_pow_right₀ (by linarith) hd
    linarith

end SumOf

/-- the sum from left to right. Used for process/routines.py line 91. -/
noncomputable def leftSum {u : ℝ} (R : Rounding u) : List ℝ → ℝ
  | [] => 0
  | x :: l => l.foldl (fun s y => R.rnd (s + y)) x

theorem leftSum_spec {u : ℝ} (R : Rounding u) (l : List ℝ) : SumOf R l (leftSum R l) (l.length - 1) := by
  cases l with
  | nil => exact .nil
  | cons x l =>
    have key : ∀ (l pre : List ℝ) (s : ℝ) (d : ℕ), SumOf R pre s d →
        SumOf R (pre ++ l) (l.foldl (fun s y => R.rnd (s + y)) s) (d + l.length) := by
      intro l
      induction l with
      | nil => intro pre s d h; simpa using h
      | cons y l ih =>
        intro pre s d h
        have := ih (pre ++ [y]) (R.rnd (s + y)) (d + 1) (.add h ((SumOf.one y).depth (Nat.zero_le d)))
        rw [List.append_assoc] at this
        simpa [Nat.add_assoc, Nat.add_comm 1] using this
    have := key l [x] x 0 (.one x)
    rw [Nat.zero_add] at this
    exact this

/-- `sum()` of Python. Used for process/routines.py line 91. -/
noncomputable def RSum.left {u : ℝ} (R : Rounding u) : RSum R := ⟨leftSum R, fun n => n - 1, leftSum_spec R⟩

/-- pairwise summation, as `np.sum` of a contiguous array: more than 128 numbers are divided into two halves. Simplified: up to
128 numbers are summed from left to right (numpy uses eight partial sums), the halves are not aligned to multiples of 8.
Used for process/routines.py line 62. -/
noncomputable def pairSum {u : ℝ} (R : Rounding u) (l : List ℝ) : ℝ :=
  if l.length ≤ 128 then leftSum R l
  else R.rnd (pairSum R (l.take (l.length / 2)) + pairSum R (l.drop (l.length / 2)))
termination_by l.length
decreasing_by
  · rw [List.length_take]; omega
  · rw [List.length_drop]; omega

/-- The number of additions a number takes part in, for process/routines.py line 62. -/
def pairDepth (n : ℕ) : ℕ := if n ≤ 128 then 127 else pairDepth ((n + 1) / 2) + 1
termination_by n
decreasing_by omega

theorem pairDepth_mono {m n : ℕ} (h : m ≤ n) : pairDepth m ≤ pairDepth n := by
  induction n using Nat.strong_induction_on generalizing m with
  | _ n ih =>
    have h127 : ∀ k, 127 ≤ pairDepth k := by
      intro k
      induction k using Nat.strong_induction_on with
      | _ k ihk =>
        unfold pairDepth
        split
        · exact le_rfl
        · have := ihk ((k + 1) / 2) (by omega)
          omega
    by_cases hm : m ≤ 128
    · rw [pairDepth, if_pos hm]
      exact h127 n
    · have hm' : pairDepth m = pairDepth ((m + 1) / 2) + 1 := by rw [pairDepth, if_neg hm]
      have hn' : pairDepth n = pairDepth ((n + 1) / 2) + 1 := by rw [pairDepth, if_neg (by omega)]
      have := @ih ((n + 1) / 2) (by omega) ((m + 1) / 2) (by omega)
      omega

theorem pairDepth_le (k n : ℕ) (h : n ≤ 128 * 2 ^ k) : pairDepth n ≤ 127 + k := by
  induction k generalizing n with
  | zero => rw [pairDepth, if_pos (by omega)]
  | succ k ih =>
    rw [pairDepth]
    split
    · omega
    · have := ih ((n + 1) / 2) (by rw [pow_succ] at h; omega)
      omega

theorem pairSum_spec {u : ℝ} (R : Rounding u) (l : List ℝ) : SumOf R l (pairSum R l) (pairDepth l.length) := by
  induction hn : l.length using Nat.strong_induction_on generalizing l with
  | _ n ih =>
    rw [pairSum, pairDepth]
    by_cases h : n ≤ 128
    · rw [if_pos (by omega), if_pos h]
      exact (leftSum_spec R l).depth (by omega)
    · rw [if_neg (by omega), if_neg h]
      have h1 := ih (l.take (l.length / 2)).length (by rw [List.length_take]; omega) _ rfl
      have h2 := ih (l.drop (l.length / 2)).length (by rw [List.length_drop]; omega) _ rfl
      have h1' := h1.depth (pairDepth_mono (n := (n + 1) / 2) (by rw [List.length_take]; omega))
      have h2' := h2.depth (pairDepth_mono (n := (n + 1) / 2) (by rw [List.length_drop]; omega))
      have := SumOf.add h1' h2'
      rwa [List.take_append_drop] at this

/-- the sum of numpy. Used for process/routines.py line 62. -/
noncomputable def RSum.pairwise {u : ℝ} (R : Rounding u) : RSum R := ⟨pairSum R, pairDepth, pairSum_spec R⟩

end Emva
