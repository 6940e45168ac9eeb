import Verif.Py.Ieee

/-!
Numbers on a grid stay on a grid: the operations of float64 on them neither overflow nor underflow.
-/
set_option autoImplicit false
namespace Emva
open Rounding

theorem two_pos_zpow (k : ℤ) : (0 : ℝ) < 2 ^ k := zpow_pos (by norm_num) _

theorem two_zpow_mono {j k : ℤ} (h : j ≤ k) : (2 : ℝ) ^ j ≤ 2 ^ k := zpow_le_zpow_right₀ (by norm_num) h

/-- in the range of the normal numbers both roundings agree -/
theorem f64_eq {x : ℝ} (h : x = 0 ∨ (2 : ℝ) ^ (-1022 : ℤ) ≤ |x|) (hx : |x| ≤ 2 ^ (1023 : ℤ)) : f64 x = .fin (b64 x) := by
  rcases eq_or_ne x 0 with rfl | h0
  · have : f64 0 = .fin 0 := by
      unfold f64
      have e : (nearestEven (0 / ulp64 0) : ℝ) * ulp64 0 = 0 := by
        rw [zero_div]
        have := nearestEven_int 0
        rw [Int.cast_zero] at this
        rw [this]; simp
      rw [e, abs_zero, if_neg (not_le.2 (two_pos_zpow _))]
    rw [this]; simp [b64]
  · have h := h.resolve_left h0
    have e : ulp64 x = ulp x := by
      refine max_eq_left ?_
      unfold ulp
      refine two_zpow_mono ?_
      have : -1022 ≤ Int.log 2 |x| := by
        refine (Int.zpow_le_iff_le_log one_lt_two (abs_pos.2 h0)).1 ?_
        push_cast
        exact h
      omega
    have e2 : (nearestEven (x / ulp64 x) : ℝ) * ulp64 x = b64 x := by rw [e, b64, if_neg h0]
    unfold f64
    rw [e2, if_neg]
    rw [not_le]
    have h1 := binary64.abs_le x
    have h2 : (1 + (2 : ℝ) ^ (-53 : ℤ)) * |x| ≤ (1 + 2 ^ (-53 : ℤ)) * 2 ^ (1023 : ℤ) :=
      mul_le_mul_of_nonneg_left hx (by positivity)
    refine lt_of_le_of_lt (h1.trans h2) ?_
    rw [show (1024 : ℤ) = 1 + 1023 by norm_num, zpow_add₀ (by norm_num : (2 : ℝ) ≠ 0) 1 1023]
    refine mul_lt_mul_of_pos_right ?_ (two_pos_zpow _)
    norm_num

/-- a multiple of `2^-k`, at most `2^m` -/
structure Tame (k m : ℤ) (x : ℝ) : Prop where
  grid : ∃ n : ℤ, x = n * 2 ^ (-k)
  le : |x| ≤ 2 ^ m

namespace Tame
variable {k m k' m' : ℤ} {x y : ℝ}

theorem weaken (h : Tame k m x) (hk : k ≤ k') (hm : m ≤ m') : Tame k' m' x := by
  obtain ⟨⟨n, rfl⟩, h2⟩ := h
  refine ⟨⟨n * 2 ^ (k' - k).toNat, ?_⟩, h2.trans (two_zpow_mono hm)⟩
  have : ((k' - k).toNat : ℤ) = k' - k := Int.toNat_of_nonneg (by omega)
  push_cast
  rw [mul_assoc, ← zpow_natCast, this, ← zpow_add₀ (by norm_num)]
  congr 2; ring

theorem neg (h : Tame k m x) : Tame k m (-x) := by
  obtain ⟨⟨n, rfl⟩, h2⟩ := h
  exact ⟨⟨-n, by push_cast; ring⟩, by rwa [abs_neg]⟩

theorem add (h : Tame k m x) (h' : Tame k m y) : Tame k (m + 1) (x + y) := by
  obtain ⟨⟨n, rfl⟩, h2⟩ := h
  obtain ⟨⟨n', rfl⟩, h2'⟩ := h'
  refine ⟨⟨n + n', by push_cast; ring⟩, (abs_add_le _ _).trans ?_⟩
  rw [zpow_add_one₀ (by norm_num)]
  linarith

theorem sub (h : Tame k m x) (h' : Tame k m y) : Tame k (m + 1) (x - y) := by
  rw [sub_eq_add_neg]; exact h.add h'.neg

theorem mul (h : Tame k m x) (h' : Tame k' m' y) : Tame (k + k') (m + m') (x * y) := by
  obtain ⟨⟨n, e⟩, h2⟩ := h
  obtain ⟨⟨n', e'⟩, h2'⟩ := h'
  refine ⟨⟨n * n', ?_⟩, ?_⟩
  · rw [e, e', neg_add, zpow_add₀ (by norm_num)]; push_cast; ring
  · rw [abs_mul, zpow_add₀ (by norm_num)]
    exact mul_le_mul h2 h2' (abs_nonneg _) (two_pos_zpow _).le

theorem int (n : ℤ) (h : |(n : ℝ)| ≤ 2 ^ m) : Tame 0 m n := ⟨⟨n, by simp⟩, h⟩

/-- a number on the grid is zero or not small -/
theorem low (h : Tame k m x) : x = 0 ∨ (2 : ℝ) ^ (-k) ≤ |x| := by
  obtain ⟨⟨n, rfl⟩, -⟩ := h
  rcases eq_or_ne n 0 with rfl | hn
  · left; simp
  · right
    rw [abs_mul, abs_of_pos (two_pos_zpow (-k))]
    have : (1 : ℝ) ≤ |(n : ℝ)| := by
      rw [← Int.cast_abs]
      exact_mod_cast Int.one_le_abs hn
    nlinarith [two_pos_zpow (-k)]

theorem f64_eq (h : Tame k m x) (hk : k ≤ 1022) (hm : m ≤ 1023) : f64 x = .fin (b64 x) :=
  Emva.f64_eq (h.low.imp_right fun h => (two_zpow_mono (by omega)).trans h) (h.le.trans (two_zpow_mono hm))

theorem rnd_le (h : |x| ≤ 2 ^ m) : |b64 x| ≤ 2 ^ (m + 1) := by
  refine (binary64.abs_le x).trans ?_
  have : (2 : ℝ) ^ (-53 : ℤ) ≤ 1 := by norm_num
  rw [zpow_add_one₀ (by norm_num)]
  nlinarith [abs_nonneg x]

/-- rounding keeps the grid -/
theorem rnd (h : Tame k m x) : Tame k (m + 1) (b64 x) := by
  refine ⟨?_, rnd_le h.le⟩
  obtain ⟨⟨n, e⟩, -⟩ := h
  rcases eq_or_ne x 0 with h0 | h0
  · exact ⟨0, by simp [h0, b64]⟩
  · have e2 := Int.lt_zpow_succ_log_self (b := 2) one_lt_two |x|
    push_cast at e2
    rcases le_or_gt (-k) (Int.log 2 |x| - 52) with hc | hc
    · refine ⟨nearestEven (x / ulp x) * 2 ^ (Int.log 2 |x| - 52 + k).toNat, ?_⟩
      have : ((Int.log 2 |x| - 52 + k).toNat : ℤ) = Int.log 2 |x| - 52 + k := Int.toNat_of_nonneg (by omega)
      rw [b64, if_neg h0]
      push_cast
      rw [mul_assoc, ← zpow_natCast, this, ← zpow_add₀ (by norm_num)]
      congr 1
      rw [ulp]; congr 1; ring
    · refine ⟨n, ?_⟩
      rw [e]
      refine b64_digits _ _ ?_
      have hx : |x| = |(n : ℝ)| * 2 ^ (-k) := by rw [e, abs_mul, abs_of_pos (two_pos_zpow (-k))]
      have h3 : |(n : ℝ)| * 2 ^ (-k) < 2 ^ (53 : ℤ) * 2 ^ (-k) := by
        rw [← hx]
        refine e2.trans_le ?_
        rw [← zpow_add₀ (by norm_num)]
        exact two_zpow_mono (by omega)
      have h4 := lt_of_mul_lt_mul_right h3 (two_pos_zpow (-k)).le
      rw [← Int.cast_abs] at h4
      have : |n| < 2 ^ 53 := by
        have h5 : (2 : ℝ) ^ (53 : ℤ) = ((2 ^ 53 : ℤ) : ℝ) := by norm_num
        rw [h5] at h4
        exact_mod_cast h4
      exact this.le

/-- a quotient is on a grid again when it has been rounded -/
theorem div {j : ℤ} (h : Tame k m x) (hj : (2 : ℝ) ^ j ≤ |y|) (hy : |y| ≤ 2 ^ m') :
    (x / y = 0 ∨ (2 : ℝ) ^ (-(k + m')) ≤ |x / y|) ∧ |x / y| ≤ 2 ^ (m - j) ∧ Tame (k + m' + 52) (m - j + 1) (b64 (x / y)) := by
  have hy0 : 0 < |y| := (two_pos_zpow j).trans_le hj
  have hle : |x / y| ≤ 2 ^ (m - j) := by
    rw [abs_div, div_le_iff₀ hy0]
    refine h.le.trans ?_
    have : (2 : ℝ) ^ m = 2 ^ (m - j) * 2 ^ j := by rw [← zpow_add₀ (by norm_num)]; congr 1; ring
    rw [this]
    exact mul_le_mul_of_nonneg_left hj (two_pos_zpow _).le
  have hlow : x / y = 0 ∨ (2 : ℝ) ^ (-(k + m')) ≤ |x / y| := by
    rcases h.low with h0 | h0
    · left; simp [h0]
    · right
      rw [abs_div, le_div_iff₀ hy0]
      refine le_trans ?_ h0
      have : (2 : ℝ) ^ (-k) = 2 ^ (-(k + m')) * 2 ^ m' := by rw [← zpow_add₀ (by norm_num)]; congr 1; ring
      rw [this]
      exact mul_le_mul_of_nonneg_left hy (two_pos_zpow _).le
  refine ⟨hlow, hle, ?_, rnd_le hle⟩
  rcases eq_or_ne (x / y) 0 with h0 | h0
  · exact ⟨0, by simp [h0, b64]⟩
  · have h1 := hlow.resolve_left h0
    have hlog : -(k + m') ≤ Int.log 2 |x / y| := by
      refine (Int.zpow_le_iff_le_log one_lt_two (abs_pos.2 h0)).1 ?_
      push_cast
      exact h1
    set z := x / y
    refine ⟨nearestEven (z / ulp z) * 2 ^ (Int.log 2 |z| - 52 + (k + m' + 52)).toNat, ?_⟩
    have : ((Int.log 2 |z| - 52 + (k + m' + 52)).toNat : ℤ) = Int.log 2 |z| - 52 + (k + m' + 52) := Int.toNat_of_nonneg (by omega)
    rw [b64, if_neg h0]
    push_cast
    rw [mul_assoc, ← zpow_natCast, this, ← zpow_add₀ (by norm_num)]
    congr 1
    rw [ulp]; congr 1; ring

end Tame

/-- the float `X` is the number `x` of the arithmetic without limits, on a grid -/
structure Rep (k m : ℤ) (X : Fl ℝ) (x : ℝ) : Prop where
  eq : X = .fin x
  tame : Tame k m x

namespace Rep
variable {k m k' m' : ℤ} {X Y : Fl ℝ} {x y : ℝ}

theorem weaken (h : Rep k m X x) (hk : k ≤ k') (hm : m ≤ m') : Rep k' m' X x := ⟨h.eq, h.tame.weaken hk hm⟩

theorem ofTame (h : Tame k m x) (hk : k ≤ 1022) (hm : m ≤ 1023) : Rep k (m + 1) (f64 x) (b64 x) := ⟨h.f64_eq hk hm, h.rnd⟩

theorem add (h : Rep k m X x) (h' : Rep k m Y y) (hk : k ≤ 1022) (hm : m ≤ 1022) :
    Rep k (m + 2) (rounded (X + Y)) (b64 (x + y)) := by
  rw [h.eq, h'.eq]
  exact (ofTame (h.tame.add h'.tame) hk (by omega)).weaken le_rfl (by omega)

theorem sub (h : Rep k m X x) (h' : Rep k m Y y) (hk : k ≤ 1022) (hm : m ≤ 1022) :
    Rep k (m + 2) (rounded (X - Y)) (b64 (x - y)) := by
  rw [h.eq, h'.eq, Fl.fin_sub]
  exact (ofTame (h.tame.sub h'.tame) hk (by omega)).weaken le_rfl (by omega)

theorem mul (h : Rep k m X x) (h' : Rep k' m' Y y) (hk : k + k' ≤ 1022) (hm : m + m' ≤ 1023) :
    Rep (k + k') (m + m' + 1) (rounded (X * Y)) (b64 (x * y)) := by
  rw [h.eq, h'.eq]
  exact ofTame (h.tame.mul h'.tame) hk hm

theorem div {j : ℤ} (h : Rep k m X x) (hY : Y = .fin y) (hj : (2 : ℝ) ^ j ≤ |y|) (hy : |y| ≤ 2 ^ m') (hk : k + m' ≤ 1022)
    (hm : m - j ≤ 1023) : Rep (k + m' + 52) (m - j + 1) (rounded (X / Y)) (b64 (x / y)) := by
  obtain ⟨h1, h2, h3⟩ := h.tame.div hj hy
  have hy0 : y ≠ 0 := abs_pos.1 ((two_pos_zpow j).trans_le hj)
  refine ⟨?_, h3⟩
  rw [h.eq, hY, Fl.fin_div hy0]
  exact f64_eq (h1.imp_right fun h => (two_zpow_mono (by omega)).trans h) (h2.trans (two_zpow_mono hm))

end Rep

/-- natural numbers up to `2^53` are floats -/
theorem f64_nat (n : ℕ) (h : n ≤ 2 ^ 53) : f64 n = .fin n := by
  have hn : |((n : ℤ) : ℝ)| ≤ 2 ^ (53 : ℤ) := by
    have : (n : ℝ) ≤ 2 ^ 53 := by exact_mod_cast h
    rw [Int.cast_natCast, abs_of_nonneg (Nat.cast_nonneg n)]
    exact_mod_cast this
  have := (Tame.int n hn).f64_eq (by norm_num) (by norm_num)
  rw [Int.cast_natCast] at this
  rw [this]
  exact congrArg _ (binary64.nat n h)

/-- division by a natural number -/
theorem Rep.divNat {k m : ℤ} {X Y : Fl ℝ} {x y : ℝ} (h : Rep k m X x) (n : ℕ) (h0 : 0 < n) (hn : n ≤ 2 ^ 53) (hY : Y = .fin n) (hy : y = n)
    (hk : k ≤ 900) (hm : m ≤ 1023) : Rep (k + 105) (m + 1) (rounded (X / Y)) (b64 (x / y)) := by
  subst hy
  have h1 : (1 : ℝ) ≤ n := by exact_mod_cast h0
  have h2 : (n : ℝ) ≤ 2 ^ 53 := by exact_mod_cast hn
  have := h.div (j := 0) (m' := 53) (y := n) hY (by rw [zpow_zero, abs_of_nonneg (by linarith)]; exact h1)
    (by rw [abs_of_nonneg (by linarith)]; exact_mod_cast h2) (by omega) (by omega)
  exact this.weaken (by omega) (by omega)

theorem pow_le_two {d : ℕ} (hd : d ≤ 2 ^ 52) : (1 + (2 : ℝ) ^ (-53 : ℤ)) ^ d ≤ 2 := by
  set u : ℝ := 2 ^ (-53 : ℤ) with hu
  have hu0 : 0 < u := two_pos_zpow _
  have hu1 : u ≤ 1 := by rw [hu]; norm_num
  have h1 := one_add_mul_le_pow (a := -u) (by linarith) d
  have h2 : (1 + u) ^ d * (1 + -u) ^ d ≤ 1 := by
    rw [← mul_pow]
    exact pow_le_one₀ (by nlinarith) (by nlinarith)
  have h3 : (d : ℝ) * u ≤ 1 / 2 := by
    have : (d : ℝ) ≤ 2 ^ 52 := by exact_mod_cast hd
    have e : (2 : ℝ) ^ 52 * u = 1 / 2 := by rw [hu]; norm_num
    rw [← e]
    exact mul_le_mul_of_nonneg_right this hu0.le
  have h6 : (1 : ℝ) / 2 ≤ (1 + -u) ^ d := le_trans (by rw [mul_neg]; linarith only [h3]) h1
  have h4 : 0 ≤ (1 + u) ^ d := by positivity
  have h5 := (mul_le_mul_of_nonneg_left h6 h4).trans h2
  rw [mul_one_div, div_le_iff₀ (by norm_num)] at h5
  exact h5.trans (by norm_num)

/-- a summation in float64 is a summation without limits; they agree on numbers on a grid -/
theorem ISumOf.sumOf {L : List (Fl ℝ)} {s : Fl ℝ} {d : ℕ} (h : ISumOf L s d) : ∀ l : List ℝ, L = l.map Fl.fin →
    ∃ s', SumOf binary64 l s' d ∧ ∀ k m p : ℤ, k ≤ 1022 → m + p ≤ 1021 → d ≤ 2 ^ 52 → (l.length : ℝ) ≤ 2 ^ p →
      (∀ x ∈ l, Tame k m x) → Rep k (m + p + 2) s s' := by
  induction h with
  | nil =>
    intro l hl
    have : l = [] := by simpa using hl.symm
    subst this
    refine ⟨0, .nil, fun k m p hk hm _ _ _ => ⟨rfl, ⟨0, by simp⟩, ?_⟩⟩
    rw [abs_zero]; exact (two_pos_zpow _).le
  | one X =>
    intro l hl
    cases l with
    | nil => simp at hl
    | cons x l =>
      have h := List.cons.inj hl
      have : l = [] := by simpa using h.2.symm
      subst this
      refine ⟨x, .one x, fun k m p hk hm _ hp hx => ⟨h.1, (hx x (by simp)).weaken le_rfl ?_⟩⟩
      have : (2 : ℝ) ^ (0 : ℤ) ≤ 2 ^ p := by simpa using hp
      have := (zpow_le_zpow_iff_right₀ (by norm_num : (1 : ℝ) < 2)).1 this
      omega
  | @add l1 l2 s s' d _ _ ih ih' =>
    intro l hl
    obtain ⟨z1, z2, rfl, h1, h2⟩ := List.map_eq_append_iff.1 hl.symm
    obtain ⟨t, ht, hr⟩ := ih z1 h1.symm
    obtain ⟨t', ht', hr'⟩ := ih' z2 h2.symm
    have hs : SumOf binary64 (z1 ++ z2) (b64 (t + t')) (d + 1) := .add ht ht'
    refine ⟨_, hs, fun k m p hk hm hd hp hx => ?_⟩
    have hn : (z1.length : ℝ) + z2.length ≤ 2 ^ p := by rw [List.length_append] at hp; push_cast at hp; exact hp
    have hx1 : ∀ x ∈ z1, Tame k m x := fun x h => hx x (List.mem_append_left _ h)
    have hx2 : ∀ x ∈ z2, Tame k m x := fun x h => hx x (List.mem_append_right _ h)
    have r1 := hr k m p hk hm (by omega) (by have := Nat.cast_nonneg (α := ℝ) z2.length; linarith) hx1
    have r2 := hr' k m p hk hm (by omega) (by have := Nat.cast_nonneg (α := ℝ) z1.length; linarith) hx2
    -- the size of a sum
    have size : ∀ (z : List ℝ) (t : ℝ) (d : ℕ), SumOf binary64 z t d → d ≤ 2 ^ 52 → (∀ x ∈ z, Tame k m x) →
        |t| ≤ 2 * (z.length * 2 ^ m) := by
      intro z t d hz hd hx
      have e := hz.err
      have a1 : ∀ z : List ℝ, (∀ x ∈ z, Tame k m x) → |z.sum| ≤ (z.map fun n => |n|).sum ∧
          (z.map fun n => |n|).sum ≤ z.length * 2 ^ m ∧ 0 ≤ (z.map fun n => |n|).sum := by
        intro z
        induction z with
        | nil => simp
        | cons a z ih =>
          intro hx
          obtain ⟨i1, i2, i3⟩ := ih fun x h => hx x (List.mem_cons_of_mem _ h)
          have := (hx a (by simp)).le
          have a0 := abs_nonneg a
          rw [List.sum_cons, List.map_cons, List.sum_cons, List.length_cons]
          push_cast
          refine ⟨(abs_add_le _ _).trans (by linarith), by linarith, by linarith⟩
      obtain ⟨i1, i2, i3⟩ := a1 z hx
      have h2 := pow_le_two hd
      have h3 : |t| ≤ (1 + (2 : ℝ) ^ (-53 : ℤ)) ^ d * (z.map fun x => |x|).sum := by
        have := abs_add_le (t - z.sum) z.sum
        rw [sub_add_cancel] at this
        linarith
      have h4 := mul_le_mul h2 i2 i3 (by norm_num)
      linarith
    have b1 := size z1 t d ht (by omega) hx1
    have b2 := size z2 t' d ht' (by omega) hx2
    have hb : |t + t'| ≤ 2 ^ (m + p + 1) := by
      refine (abs_add_le _ _).trans ?_
      rw [zpow_add_one₀ (by norm_num), zpow_add₀ (by norm_num)]
      have := mul_le_mul_of_nonneg_right hn (two_pos_zpow m).le
      linarith
    have ht : Tame k (m + p + 1) (t + t') := ⟨(r1.tame.add r2.tame).grid, hb⟩
    rw [r1.eq, r2.eq]
    exact (Rep.ofTame ht hk (by omega)).weaken le_rfl (by omega)
  | @perm l1 l2 s d _ hp ih =>
    intro l hl
    subst hl
    obtain ⟨l0, hl0, e⟩ : ∃ l0 : List ℝ, l0.Perm l ∧ l1 = l0.map Fl.fin := by
      let f : Fl ℝ → ℝ := fun X => match X with | .fin x => x | _ => 0
      have ef : (l.map Fl.fin).map f = l := by
        rw [List.map_map]
        conv_rhs => rw [← List.map_id l]
        exact List.map_congr_left fun _ _ => rfl
      refine ⟨l1.map f, ?_, ?_⟩
      · have := hp.map f
        rwa [ef] at this
      · rw [List.map_map]
        conv_lhs => rw [← List.map_id l1]
        refine List.map_congr_left fun X hX => ?_
        obtain ⟨x, -, rfl⟩ := List.mem_map.1 (hp.mem_iff.1 hX)
        rfl
    obtain ⟨s', h1, h2⟩ := ih l0 e
    refine ⟨s', h1.perm hl0, fun k m p hk hm hd hlen hx => h2 k m p hk hm hd (by rw [hl0.length_eq]; exact hlen) fun x h => ?_⟩
    exact hx x (hl0.mem_iff.1 h)
  | @depth L s d d' _ hd ih =>
    intro l hl
    obtain ⟨s', h1, h2⟩ := ih l hl
    exact ⟨s', h1.depth hd, fun k m p hk hm hd' => h2 k m p hk hm (hd.trans hd')⟩

/-- the summation without limits that belongs to a summation in float64 -/
noncomputable def ISum.free (T : ISum) : RSum binary64 where
  sum l := ((T.spec (l.map Fl.fin)).sumOf l rfl).choose
  depth := T.depth
  spec l := by
    have := ((T.spec (l.map Fl.fin)).sumOf l rfl).choose_spec.1
    exact this.depth (by rw [List.length_map])

theorem ISum.rep (T : ISum) {L : List (Fl ℝ)} {l : List ℝ} {k m : ℤ} (p : ℤ) (h : List.Forall₂ (Rep k m) L l) (hk : k ≤ 1022)
    (hm : m + p ≤ 1021) (hd : T.depth l.length ≤ 2 ^ 52) (hp : (l.length : ℝ) ≤ 2 ^ p) :
    Rep k (m + p + 2) (T.sum L) (T.free.sum l) := by
  have e : L = l.map Fl.fin := by
    clear hd hp
    induction h with
    | nil => rfl
    | cons h _ ih => rw [List.map_cons, ← ih, h.eq]
  have hx : ∀ x ∈ l, Tame k m x := by
    clear hd hp e
    induction h with
    | nil => simp
    | cons h _ ih =>
      intro x hx
      rcases List.mem_cons.1 hx with rfl | hx
      · exact h.tame
      · exact ih x hx
  subst e
  have := ((T.spec (l.map Fl.fin)).sumOf l rfl).choose_spec.2 k m p hk hm
  exact this (by rwa [List.length_map]) hp hx

end Emva
