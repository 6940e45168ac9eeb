import Verif.Model.IeeeSpatial
import Verif.Props.C106
import Verif.Props.C96Float

/-!
C107: the nonuniformities in float64 with its limits: they neither overflow nor underflow, and they are accurate.
-/
set_option autoImplicit false
namespace Emva
open Spec Data Results Rounding

namespace Ieee
variable (q : LSQ ℝ)

theorem stable_s2Y (d : Bool) : Stable (s2Y d) := by
  have := stable_sigma2YStack (F := ℝ) d; have := stable_s2YMeasured (F := ℝ) d
  unfold s2Y; stab
theorem stable_intQuot (a b : ℤ) : Stable (intQuot a b) := by unfold intQuot; stab
theorem stable_s2YCol (d : Bool) : Stable (s2YCol d) := by
  have := stable_s2Y d; have := stable_s2YCav (F := ℝ) d; have := stable_s2YRav (F := ℝ) d; have := stable_intQuot
  unfold s2YCol; stab
theorem stable_s2YRow (d : Bool) : Stable (s2YRow d) := by
  have := stable_s2Y d; have := stable_s2YCav (F := ℝ) d; have := stable_s2YRav (F := ℝ) d; have := stable_intQuot
  unfold s2YRow; stab
theorem stable_s2YPixel (d : Bool) : Stable (s2YPixel d) := by
  have := stable_s2Y d; have := stable_s2YCav (F := ℝ) d; have := stable_s2YRav (F := ℝ) d; have := stable_intQuot
  unfold s2YPixel; stab

end Ieee

/-- the attribute that gives a part of the variance, in float64 with its limits -/
noncomputable def Spec.varianceF64 : Part → Bool → M ℝ (Fl ℝ)
  | .total => Ieee.s2Y
  | .row => Ieee.s2YRow
  | .col => Ieee.s2YCol
  | .pixel => Ieee.s2YPixel

theorem stable_varianceF64 (p : Part) (d : Bool) : Stable (varianceF64 p d) := by
  cases p
  · exact Ieee.stable_s2Y d
  · exact Ieee.stable_s2YRow d
  · exact Ieee.stable_s2YCol d
  · exact Ieee.stable_s2YPixel d

/-- the float is on a grid and the other one is the same -/
def Grid (k m : ℤ) (X Y : Fl ℝ) : Prop := ∃ z, Y = .fin z ∧ Rep k m X z

namespace Grid
variable {k m k' m' : ℤ} {X Y X' Y' : Fl ℝ}

theorem eq (h : Grid k m X Y) : X = Y := by obtain ⟨z, e, r⟩ := h; rw [e, r.eq]

theorem weaken (h : Grid k m X Y) (hk : k ≤ k') (hm : m ≤ m') : Grid k' m' X Y := by
  obtain ⟨z, e, r⟩ := h; exact ⟨z, e, r.weaken hk hm⟩

theorem sub (h : Grid k m X Y) (h' : Grid k m X' Y') (hk : k ≤ 1022) (hm : m ≤ 1022) :
    Grid k (m + 2) (rounded (X - X')) (Rounded.rd binary64 (Y - Y')) := by
  obtain ⟨z, rfl, r⟩ := h
  obtain ⟨z', rfl, r'⟩ := h'
  exact ⟨_, by rw [Fl.fin_sub]; rfl, r.sub r' hk hm⟩

theorem mul (h : Grid k m X Y) (h' : Grid k' m' X' Y') (hk : k + k' ≤ 1022) (hm : m + m' ≤ 1023) :
    Grid (k + k') (m + m' + 1) (rounded (X * X')) (Rounded.rd binary64 (Y * Y')) := by
  obtain ⟨z, rfl, r⟩ := h
  obtain ⟨z', rfl, r'⟩ := h'
  exact ⟨_, by rw [Fl.fin_mul]; rfl, r.mul r' hk hm⟩

theorem divNat (h : Grid k m X Y) (n : ℕ) (h0 : 0 < n) (hn : n ≤ 2 ^ 53) (hk : k ≤ 900) (hm : m ≤ 1023) :
    Grid (k + 105) (m + 1) (rounded (X / .fin (n : ℝ))) (Rounded.rd binary64 (Y / .fin (n : ℝ))) := by
  obtain ⟨z, rfl, r⟩ := h
  exact ⟨_, by rw [Fl.fin_div (by exact_mod_cast h0.ne')]; rfl, r.divNat n h0 hn rfl rfl hk hm⟩

/-- a quotient of integers -/
theorem quot {a b : ℤ} (ha : |a| ≤ 2 ^ 53) (hb : b ≠ 0) (hb' : |b| ≤ 2 ^ 54) :
    Grid 106 54 (rounded (.fin ((a : ℝ) / b))) (Rounded.rd binary64 (.fin ((a : ℝ) / b))) := by
  have h1 : |(a : ℝ)| ≤ 2 ^ (53 : ℤ) := by rw [← Int.cast_abs]; exact_mod_cast ha
  have h2 : |(b : ℝ)| ≤ 2 ^ (54 : ℤ) := by rw [← Int.cast_abs]; exact_mod_cast hb'
  have h3 : (2 : ℝ) ^ (0 : ℤ) ≤ |(b : ℝ)| := by
    rw [zpow_zero, ← Int.cast_abs]; exact_mod_cast Int.one_le_abs hb
  have r : Rep 0 53 (.fin (a : ℝ)) a := ⟨rfl, Tame.int a h1⟩
  have := r.div rfl h3 h2 (by norm_num) (by norm_num)
  rw [Fl.fin_div (by exact_mod_cast hb)] at this
  exact ⟨_, rfl, this.weaken (by norm_num) (by norm_num)⟩

end Grid

/-- the numbers of a stack in a dictionary, on grids -/
structure GridData (s : Data.SpatialData ℝ) : Prop where
  var_mean : Grid 210 121 s.var_mean s.var_mean
  avg_var : Grid 525 306 s.avg_var s.avg_var
  avg_mean : Grid 210 121 s.avg_mean s.avg_mean
  cav : Grid 525 306 s.avg_var_cav s.avg_var_cav
  rav : Grid 525 306 s.avg_var_rav s.avg_var_rav
  L0 : 0 < s.L
  Lle : s.L ≤ 2 ^ 53
  pos : 0 < s.M * s.N
  le : s.M * s.N ≤ 2 ^ 53

/-- the two attributes raise the same error or have the same value on a grid -/
def GridVal (x y : Except PyErr (Fl ℝ)) : Prop := (∃ e, x = .error e ∧ y = .error e) ∨ ∃ X Y, x = .ok X ∧ y = .ok Y ∧ Grid 631 367 X Y

theorem grid_s2Y {d : Bool} {r : Res ℝ} (g : GridData (side d r.spatial)) :
    ∃ X Y, val (Ieee.s2Y d) r = .ok X ∧ val (Rounded.s2Y binary64 d) r = .ok Y ∧ Grid 525 308 X Y := by
  refine ⟨_, _, rfl, rfl, ?_⟩
  exact g.avg_var.sub ((g.var_mean.divNat _ g.L0 g.Lle (by norm_num) (by norm_num)).weaken (by norm_num) (by norm_num)) (by norm_num)
    (by norm_num)

set_option maxHeartbeats 1000000 in
theorem grid_variance {d : Bool} {r : Res ℝ} (g : GridData (side d r.spatial)) (p : Part) :
    GridVal (val (varianceF64 p d) r) (val (varianceIn binary64 p d) r) := by
  obtain ⟨X, Y, eX, eY, gs⟩ := grid_s2Y g
  have c1 := Ieee.stable_s2Y d
  have c2 := Rounded.stable_s2Y binary64 d
  have c3 := stable_s2YCav (F := ℝ) d
  have c4 := stable_s2YRav (F := ℝ) d
  have c5 := Ieee.stable_intQuot
  have c6 := Rounded.stable_intQuot binary64
  have eC : val (s2YCav d) r = .ok (side d r.spatial).avg_var_cav := rfl
  have eR : val (s2YRav d) r = .ok (side d r.spatial).avg_var_rav := rfl
  have eS : val (spat d) r = .ok (side d r.spatial) := rfl
  obtain ⟨s, hs⟩ : ∃ s, s = side d r.spatial := ⟨_, rfl⟩
  rw [← hs] at g eC eR eS
  -- the integers
  have hM : 0 < s.M := Nat.pos_of_mul_pos_right g.pos
  have hN : 0 < s.N := Nat.pos_of_mul_pos_left g.pos
  have h1 : s.M ≤ s.M * s.N := Nat.le_mul_of_pos_right _ hN
  have h2 : s.N ≤ s.M * s.N := Nat.le_mul_of_pos_left _ hM
  have h3 := g.le
  obtain ⟨m, hm⟩ : ∃ m : ℤ, m = s.M := ⟨_, rfl⟩
  obtain ⟨n, hn⟩ : ∃ n : ℤ, n = s.N := ⟨_, rfl⟩
  have hmn : m * n = ((s.M * s.N : ℕ) : ℤ) := by rw [hm, hn]; push_cast; rfl
  have i1 : |m * n| ≤ 2 ^ 53 := by rw [hmn, _root_.abs_le]; constructor <;> omega
  have i2 : |m * n - m| ≤ 2 ^ 53 := by rw [hmn, hm, _root_.abs_le]; constructor <;> omega
  have i3 : |m * n - n| ≤ 2 ^ 53 := by rw [hmn, hn, _root_.abs_le]; constructor <;> omega
  have i4 : |m| ≤ 2 ^ 53 := by rw [hm, _root_.abs_le]; constructor <;> omega
  have i5 : |n| ≤ 2 ^ 53 := by rw [hn, _root_.abs_le]; constructor <;> omega
  have i6 : |m * n - m - n| ≤ 2 ^ 54 := by rw [hmn, hm, hn, _root_.abs_le]; constructor <;> omega
  have iq0 : m * n - m - n = 0 → ∀ a, val (Ieee.intQuot a (m * n - m - n)) r = .error .zeroDivisionError ∧
      val (Rounded.intQuot binary64 a (m * n - m - n)) r = .error .zeroDivisionError := by
    intro h a
    rw [h]
    constructor
    · unfold Ieee.intQuot; rw [val_bind (Stable.lift _) (by stab), val_lift]; rfl
    · unfold Rounded.intQuot; rw [val_bind (Stable.lift _) (by stab), val_lift]; rfl
  have iq : m * n - m - n ≠ 0 → ∀ a : ℤ, val (Ieee.intQuot a (m * n - m - n)) r = .ok (rounded (.fin ((a : ℝ) / ((m * n - m - n : ℤ) : ℝ)))) ∧
      val (Rounded.intQuot binary64 a (m * n - m - n)) r = .ok (Rounded.rd binary64 (.fin ((a : ℝ) / ((m * n - m - n : ℤ) : ℝ)))) := by
    intro h a
    constructor
    · unfold Ieee.intQuot; rw [val_bind (Stable.lift _) (by stab), val_lift, intDiv_ne h]; rfl
    · unfold Rounded.intQuot; rw [val_bind (Stable.lift _) (by stab), val_lift, intDiv_ne h]; rfl
  by_cases hD : m * n - m - n = 0
  · have z := iq0 hD
    cases p
    · exact .inr ⟨X, Y, eX, eY, gs.weaken (by norm_num) (by norm_num)⟩
    · refine .inl ⟨.zeroDivisionError, ?_, ?_⟩
      · show val (Ieee.s2YRow d) r = _
        unfold Ieee.s2YRow
        rw [val_bind_ok (stable_spat d) (by stab) eS, val_bind (c5 _ _) (by stab), ← hm, ← hn, (z _).1]; rfl
      · show val (Rounded.s2YRow binary64 d) r = _
        unfold Rounded.s2YRow
        rw [val_bind_ok (stable_spat d) (by stab) eS, val_bind (c6 _ _) (by stab), ← hm, ← hn, (z _).2]; rfl
    · refine .inl ⟨.zeroDivisionError, ?_, ?_⟩
      · show val (Ieee.s2YCol d) r = _
        unfold Ieee.s2YCol
        rw [val_bind_ok (stable_spat d) (by stab) eS, val_bind (c5 _ _) (by stab), ← hm, ← hn, (z _).1]; rfl
      · show val (Rounded.s2YCol binary64 d) r = _
        unfold Rounded.s2YCol
        rw [val_bind_ok (stable_spat d) (by stab) eS, val_bind (c6 _ _) (by stab), ← hm, ← hn, (z _).2]; rfl
    · refine .inl ⟨.zeroDivisionError, ?_, ?_⟩
      · show val (Ieee.s2YPixel d) r = _
        unfold Ieee.s2YPixel
        rw [val_bind_ok (stable_spat d) (by stab) eS, val_bind (c5 _ _) (by stab), ← hm, ← hn, (z _).1]; rfl
      · show val (Rounded.s2YPixel binary64 d) r = _
        unfold Rounded.s2YPixel
        rw [val_bind_ok (stable_spat d) (by stab) eS, val_bind (c6 _ _) (by stab), ← hm, ← hn, (z _).2]; rfl
  · have z := iq hD
    cases p
    · exact .inr ⟨X, Y, eX, eY, gs.weaken (by norm_num) (by norm_num)⟩
    · have a1 := (Grid.quot i3 hD i6).mul g.rav (by norm_num) (by norm_num)
      have a2 := gs.sub (g.cav.weaken le_rfl (by norm_num)) (by norm_num) (by norm_num)
      have a3 := (Grid.quot i4 hD i6).mul a2 (by norm_num) (by norm_num)
      have a4 : Grid 631 367 _ _ := ((a1.weaken le_rfl (by norm_num)).sub a3 (by norm_num) (by norm_num)).weaken (by norm_num) (by norm_num)
      refine .inr ⟨_, _, ?_, ?_, a4⟩
      · show val (Ieee.s2YRow d) r = _
        unfold Ieee.s2YRow
        rw [val_bind_ok (stable_spat d) (by stab) eS, ← hm, ← hn, val_bind_ok (c5 _ _) (by stab) (z _).1, val_bind_ok (c5 _ _) (by stab) (z _).1,
          val_bind_ok c4 (by stab) eR, val_bind_ok c1 (by stab) eX, val_bind_ok c3 (by stab) eC, val_pure]
      · show val (Rounded.s2YRow binary64 d) r = _
        unfold Rounded.s2YRow
        rw [val_bind_ok (stable_spat d) (by stab) eS, ← hm, ← hn, val_bind_ok (c6 _ _) (by stab) (z _).2, val_bind_ok (c6 _ _) (by stab) (z _).2,
          val_bind_ok c4 (by stab) eR, val_bind_ok c2 (by stab) eY, val_bind_ok c3 (by stab) eC, val_pure]
    · have a1 := (Grid.quot i2 hD i6).mul g.cav (by norm_num) (by norm_num)
      have a2 := gs.sub (g.rav.weaken le_rfl (by norm_num)) (by norm_num) (by norm_num)
      have a3 := (Grid.quot i5 hD i6).mul a2 (by norm_num) (by norm_num)
      have a4 : Grid 631 367 _ _ := ((a1.weaken le_rfl (by norm_num)).sub a3 (by norm_num) (by norm_num)).weaken (by norm_num) (by norm_num)
      refine .inr ⟨_, _, ?_, ?_, a4⟩
      · show val (Ieee.s2YCol d) r = _
        unfold Ieee.s2YCol
        rw [val_bind_ok (stable_spat d) (by stab) eS, ← hm, ← hn, val_bind_ok (c5 _ _) (by stab) (z _).1, val_bind_ok (c5 _ _) (by stab) (z _).1,
          val_bind_ok c3 (by stab) eC, val_bind_ok c1 (by stab) eX, val_bind_ok c4 (by stab) eR, val_pure]
      · show val (Rounded.s2YCol binary64 d) r = _
        unfold Rounded.s2YCol
        rw [val_bind_ok (stable_spat d) (by stab) eS, ← hm, ← hn, val_bind_ok (c6 _ _) (by stab) (z _).2, val_bind_ok (c6 _ _) (by stab) (z _).2,
          val_bind_ok c3 (by stab) eC, val_bind_ok c2 (by stab) eY, val_bind_ok c4 (by stab) eR, val_pure]
    · have a1 := gs.sub (g.cav.weaken le_rfl (by norm_num)) (by norm_num) (by norm_num)
      have a2 := a1.sub (g.rav.weaken le_rfl (by norm_num)) (by norm_num) (by norm_num)
      have a4 : Grid 631 367 _ _ := ((Grid.quot i1 hD i6).mul a2 (by norm_num) (by norm_num)).weaken (by norm_num) (by norm_num)
      refine .inr ⟨_, _, ?_, ?_, a4⟩
      · show val (Ieee.s2YPixel d) r = _
        unfold Ieee.s2YPixel
        rw [val_bind_ok (stable_spat d) (by stab) eS, ← hm, ← hn, val_bind_ok (c5 _ _) (by stab) (z _).1,
          val_bind_ok c1 (by stab) eX, val_bind_ok c3 (by stab) eC, val_bind_ok c4 (by stab) eR, val_pure]
      · show val (Rounded.s2YPixel binary64 d) r = _
        unfold Rounded.s2YPixel
        rw [val_bind_ok (stable_spat d) (by stab) eS, ← hm, ← hn, val_bind_ok (c6 _ _) (by stab) (z _).2,
          val_bind_ok c2 (by stab) eY, val_bind_ok c3 (by stab) eC, val_bind_ok c4 (by stab) eR, val_pure]

/-- the root of a number on a grid: not a number, zero, or of moderate size -/
theorem grid_sqrt {X Y : Fl ℝ} {k m : ℤ} (h : Grid k m X Y) (hk : 0 ≤ k) (hmk : m ≤ k) (hk' : k ≤ 1022) :
    (rounded (Fl.sqrt X) = .nan ∧ Rounded.rd binary64 (Fl.sqrt Y) = .nan) ∨
    (rounded (Fl.sqrt X) = .fin 0 ∧ Rounded.rd binary64 (Fl.sqrt Y) = .fin 0) ∨
    ∃ z, Same (k + 1) (rounded (Fl.sqrt X)) (Rounded.rd binary64 (Fl.sqrt Y)) z := by
  obtain ⟨z, rfl, r⟩ := h
  rw [r.eq]
  rcases lt_trichotomy z 0 with h0 | rfl | h0
  · left
    have : Fl.sqrt (.fin z) = .nan := if_pos h0
    rw [this]; exact ⟨rfl, rfl⟩
  · right; left
    have : Fl.sqrt (.fin 0) = .fin 0 := by rw [Fl.sqrt_fin le_rfl, Real.sqrt_zero]
    rw [this]
    have e : b64 0 = 0 := by simp [b64]
    refine ⟨?_, congrArg _ e⟩
    show f64 0 = _
    rw [f64_eq (.inl rfl) (by rw [abs_zero]; exact (two_pos_zpow _).le), e]
  · right; right
    have m1 : Mag k z := by
      constructor
      · have := r.tame.low.resolve_left h0.ne'
        rwa [abs_of_pos h0] at this
      · exact (le_abs_self z).trans (r.tame.le.trans (two_zpow_mono hmk))
    exact ⟨_, ((Same.of m1).sqrt hk).rnd hk'⟩

/-- a quotient whose divisor is on a grid -/
theorem same_div {a k m : ℤ} {X Y X' Y' : Fl ℝ} {x : ℝ} (h : Same a X Y x) (h' : Grid k m X' Y') (ha : a + k ≤ 1022) (hm : a + m ≤ 1022) :
    rounded (X / X') = Rounded.rd binary64 (Y / Y') := by
  obtain ⟨y, rfl, r⟩ := h'
  rw [r.eq, h.left, h.right]
  rcases r.tame.low with h0 | h0
  · rw [h0, Fl.fin_div_zero, if_neg h.mag.pos.ne']; rfl
  · have hy : 0 < |y| := (two_pos_zpow _).trans_le h0
    rw [Fl.fin_div (abs_pos.1 hy)]
    show f64 _ = .fin (b64 _)
    refine f64_eq (.inr ?_) ?_ <;> rw [abs_div, abs_of_pos h.mag.pos]
    · rw [le_div_iff₀ hy]
      refine (mul_le_mul_of_nonneg_left r.tame.le (two_pos_zpow _).le).trans (le_trans ?_ h.mag.ge)
      rw [← zpow_add₀ (by norm_num)]
      exact two_zpow_mono (by omega)
    · rw [div_le_iff₀ hy]
      refine (h.mag.le.trans (le_trans ?_ (mul_le_mul_of_nonneg_left h0 (two_pos_zpow _).le)))
      rw [← zpow_add₀ (by norm_num)]
      exact two_zpow_mono (by omega)

/-- zero divided by a number -/
theorem zero_div_f64 (X : Fl ℝ) : rounded (.fin 0 / X) = Rounded.rd binary64 (.fin 0 / X) := by
  have e : b64 0 = 0 := by simp [b64]
  have f : f64 0 = .fin 0 := by rw [f64_eq (.inl rfl) (by rw [abs_zero]; exact (two_pos_zpow _).le), e]
  cases X with
  | nan => rfl
  | inf s =>
    show f64 0 = .fin (b64 0)
    rw [f, e]
  | fin y =>
    by_cases h : y = 0
    · subst h; rw [Fl.zero_div_zero]; rfl
    · rw [Fl.fin_div h, zero_div]
      show f64 0 = .fin (b64 0)
      rw [f, e]

theorem grid_prnu {r : Res ℝ} (gd : GridData (side true r.spatial)) (gb : GridData (side false r.spatial)) (p : Part) :
    val (Ieee.prnu (varianceF64 p)) r = val (Rounded.prnu binary64 (varianceIn binary64 p)) r := by
  have s1 := stable_varianceF64 p
  have s2 := stable_varianceIn binary64 p
  have s3 := s1 true
  have s4 := s2 true
  unfold Ieee.prnu Rounded.prnu
  rw [val_bind (s1 _) (by stab), val_bind (s2 _) (by stab)]
  rcases grid_variance gb p with ⟨e, h1, h2⟩ | ⟨X, Y, h1, h2, g1⟩
  · rw [h1, h2]; rfl
  rw [h1, h2]
  show val _ r = val _ r
  rw [val_bind (s1 _) (by stab), val_bind (s2 _) (by stab)]
  rcases grid_variance gd p with ⟨e, h3, h4⟩ | ⟨X', Y', h3, h4, g2⟩
  · rw [h3, h4]; rfl
  rw [h3, h4]
  show val _ r = val _ r
  rw [val_bind_ok (stable_spat false) (by stab) rfl, val_bind_ok (stable_spat true) (by stab) rfl,
    val_bind_ok (stable_spat false) (by stab) rfl, val_bind_ok (stable_spat true) (by stab) rfl, val_pure, val_pure]
  have d := g1.sub g2 (by norm_num) (by norm_num)
  have gm : Grid 210 123 (rounded ((side false r.spatial).avg_mean - (side true r.spatial).avg_mean))
      (Rounded.rd binary64 ((side false r.spatial).avg_mean - (side true r.spatial).avg_mean)) :=
    gb.avg_mean.sub gd.avg_mean (by norm_num) (by norm_num)
  refine congrArg _ ?_
  show rounded (rounded (rounded (Fl.sqrt (rounded (X - X'))) * .fin 100) / rounded ((side false r.spatial).avg_mean - (side true r.spatial).avg_mean)) =
    Rounded.rd binary64 (Rounded.rd binary64 (Rounded.rd binary64 (Fl.sqrt (Rounded.rd binary64 (Y - Y'))) * .fin 100) /
      Rounded.rd binary64 ((side false r.spatial).avg_mean - (side true r.spatial).avg_mean))
  rcases grid_sqrt d (by norm_num) (by norm_num) (by norm_num) with ⟨e1, e2⟩ | ⟨e1, e2⟩ | ⟨z, sz⟩
  · rw [e1, e2]
    have n1 : (Fl.nan : Fl ℝ) * .fin 100 = .nan := rfl
    have n2 : ∀ W : Fl ℝ, (Fl.nan : Fl ℝ) / W = .nan := fun W => by cases W <;> rfl
    rw [n1]
    show rounded (.nan / _) = Rounded.rd binary64 (.nan / _)
    rw [n2, n2]; rfl
  · rw [e1, e2, Fl.fin_mul, zero_mul, ← gm.eq]
    have e : b64 0 = 0 := by simp [b64]
    have f : rounded (.fin 0) = .fin 0 := by
      show f64 0 = _
      rw [f64_eq (.inl rfl) (by rw [abs_zero]; exact (two_pos_zpow _).le), e]
    have f' : Rounded.rd binary64 (.fin 0) = .fin 0 := congrArg _ e
    rw [f, f']
    exact zero_div_f64 _
  · exact same_div ((sz.mul (Same.of mag_hundred)).rnd (by norm_num)) gm (by norm_num) (by norm_num)

theorem grid_dsnu {q : LSQ ℝ} {r : Res ℝ} (gd : GridData (side true r.spatial)) (p : Part) (k : ℝ)
    (hk : val (Ieee.gain q) r = .ok (.fin k)) (hk' : val (Rounded.gain binary64 q) r = .ok (.fin k)) (mk : Mag 100 k) :
    val (Ieee.dsnu q (varianceF64 p true)) r = val (Rounded.dsnu binary64 q (varianceIn binary64 p true)) r := by
  have s1 := stable_varianceF64 p true
  have s2 := stable_varianceIn binary64 p true
  have g1 := Ieee.stable_gain q
  have g2 := Rounded.stable_gain binary64 q
  unfold Ieee.dsnu Rounded.dsnu
  rw [val_bind s1 (by stab), val_bind s2 (by stab)]
  rcases grid_variance gd p with ⟨e, h1, h2⟩ | ⟨X, Y, h1, h2, gg⟩
  · rw [h1, h2]; rfl
  have eXY := gg.eq
  rw [h1, h2]
  show val _ r = val _ r
  rw [← eXY]
  split
  · rfl
  · rw [val_bind_ok s1 (by stab) h1, val_bind_ok s2 (by stab) h2, val_bind_ok g1 (by stab) hk, val_bind_ok g2 (by stab) hk',
      val_pure, val_pure]
    refine congrArg (fun x => Except.ok (PyNum.num x)) ?_
    rcases grid_sqrt gg (by norm_num) (by norm_num) (by norm_num) with ⟨e1, e2⟩ | ⟨e1, e2⟩ | ⟨z, sz⟩
    · rw [e1, e2]; rfl
    · rw [e1, e2]; exact zero_div_f64 _
    · have := (sz.div (Same.of mk)).rnd (by norm_num)
      rw [this.left, this.right]

theorem grid_dsnu_DN {r : Res ℝ} (gd : GridData (side true r.spatial)) : val Ieee.DSNU1288DN r = val (Rounded.DSNU1288DN binary64) r := by
  obtain ⟨X, Y, h1, h2, gg⟩ := grid_s2Y gd
  have s1 := Ieee.stable_s2Y true
  have s2 := Rounded.stable_s2Y binary64 true
  have eXY := gg.eq
  unfold Ieee.DSNU1288DN Rounded.DSNU1288DN
  rw [val_bind_ok s1 (by stab) h1, val_bind_ok s2 (by stab) h2, ← eXY]
  split
  · rfl
  · rw [val_bind_ok s1 (by stab) h1, val_bind_ok s2 (by stab) h2, val_pure, val_pure]
    refine congrArg (fun x => Except.ok (PyNum.num x)) ?_
    rcases grid_sqrt gg (by norm_num) (by norm_num) (by norm_num) with ⟨e1, e2⟩ | ⟨e1, e2⟩ | ⟨z, sz⟩
    · rw [e1, e2]
    · rw [e1, e2]
    · rw [sz.left, sz.right]

section
variable (T : ISum)

/-- what is needed of a stack: at least two images of one size, not too many, and sums that are not too deep -/
structure Spec.StackF64 (imgs : List Img) (M N : ℕ) : Prop where
  two : 2 ≤ imgs.length
  shape : ∀ a ∈ imgs, a.h = M ∧ a.w = N
  size : M * N ≤ 2 ^ 53
  few : imgs.length ^ 3 ≤ 2 ^ 53
  rows : imgs.length * M ≤ 2 ^ 53
  cols : imgs.length * N ≤ 2 ^ 53
  pixels : 2 ≤ M * N
  depth : ∀ n ∈ [M * N, M, N], T.depth n ≤ 2 ^ 52

theorem stack_grid {imgs : List Img} {M N : ℕ} (h : StackF64 T imgs M N) : GridData (Ieee.spatialDict T M N (getIntImgs ℚ i64 imgs)) ∧
    Ieee.spatialDict T M N (getIntImgs ℚ i64 imgs) = Rounded.spatialDict binary64 T.free M N (getIntImgs ℚ i64 imgs) := by
  obtain ⟨h1, h2, h3, h4, h5⟩ := spatial_rep T imgs M N h.two h.shape h.size h.few h.rows h.cols h.pixels (h.depth _ (by simp))
    (h.depth _ (by simp)) (h.depth _ (by simp))
  have hL : (getIntImgs ℚ i64 imgs).L = imgs.length := rfl
  constructor
  · refine ⟨⟨_, h1.eq, h1⟩, ⟨_, h2.eq, h2⟩, ⟨_, h3.eq, h3⟩, ⟨_, h4.eq, h4⟩, ⟨_, h5.eq, h5⟩, ?_, ?_, ?_, h.size⟩
    · show 0 < imgs.length
      have := h.two; omega
    · show imgs.length ≤ _
      exact le_trans (Nat.le_self_pow (by norm_num) _) h.few
    · have := h.pixels
      show 0 < M * N
      omega
  · unfold Ieee.spatialDict Rounded.spatialDict
    simp only [h1.eq, h2.eq, h3.eq, h4.eq, h5.eq]

/-- C107, no limits: the spatial variances and the PRNU of any two stacks, in total and in rows, columns and pixels, are the same
with and without the limits of float64; so is the DSNU of a measurement whose gain is
between `2^-100` and `2^100`. This includes the cases in which
they are not a number, infinite, or raise an error. -/
theorem C107_limits (dark bright : List Img) (M N : ℕ) (hd : StackF64 T dark M N) (hb : StackF64 T bright M N) (r : Res ℝ)
    (ed : side true r.spatial = Ieee.spatialDict T M N (getIntImgs ℚ i64 dark))
    (eb : side false r.spatial = Ieee.spatialDict T M N (getIntImgs ℚ i64 bright)) (p : Part) :
    (∀ d, val (varianceF64 p d) r = val (varianceIn binary64 p d) r) ∧
    val (Ieee.prnu (varianceF64 p)) r = val (Rounded.prnu binary64 (varianceIn binary64 p)) r ∧
    val Ieee.DSNU1288DN r = val (Rounded.DSNU1288DN binary64) r ∧
    ∀ (h w : ℕ) (l : List Shot), 0 < h * w → h * w ≤ 2 ^ 51 → T.depth (h * w) ≤ 2 ^ 52 → ShotsSized h w l →
      r.temporal = Ieee.temporal T h w l → ∀ (q : LSQ ℝ) (k : ℝ), val (Ieee.gain q) r = .ok (.fin k) → 1 / 2 ^ 100 ≤ k → k ≤ 2 ^ 100 →
      val (Ieee.dsnu q (varianceF64 p true)) r = val (Rounded.dsnu binary64 q (varianceIn binary64 p true)) r := by
  have gd : GridData (side true r.spatial) := ed ▸ (stack_grid T hd).1
  have gb : GridData (side false r.spatial) := eb ▸ (stack_grid T hb).1
  refine ⟨fun d => ?_, grid_prnu gd gb p, grid_dsnu_DN gd, fun h w l h0 hn hd' hs ht q k h1 k1 k2 =>
    grid_dsnu gd p k h1 ((C106_fits T h0 hn hd' hs q r ht).2.2 ▸ h1) (Mag.ofBounds 100 k1 k2)⟩
  have : GridVal (val (varianceF64 p d) r) (val (varianceIn binary64 p d) r) := by
    cases d
    · exact grid_variance gb p
    · exact grid_variance gd p
  rcases this with ⟨e, h1, h2⟩ | ⟨X, Y, h1, h2, g⟩
  · rw [h1, h2]
  · rw [h1, h2, g.eq]

/-- C107, accuracy: the nonuniformities of the computer against the exact ones of the same images, as in `C96_float64`. -/
theorem C107_accuracy (dark bright : List Img) (M N Bd Bb : ℕ) (hd : Stack dark M N Bd) (hb : Stack bright M N Bb)
    (hM : 4 ≤ M) (hN : 4 ≤ N) (hn : M * N ≤ 2 ^ 40) (dep : ∀ n ∈ [M * N, M, N], T.depth n ≤ 160) (r' r : Res ℝ)
    (xd : getSpatialData M N (getIntImgs ℝ i64 dark) = .ok (side true r.spatial))
    (xb : getSpatialData M N (getIntImgs ℝ i64 bright) = .ok (side false r.spatial))
    (ed : side true r'.spatial = Ieee.spatialDict T M N (getIntImgs ℚ i64 dark))
    (eb : side false r'.spatial = Ieee.spatialDict T M N (getIntImgs ℚ i64 bright))
    (p : Part) (vd : ℝ) (evd : val (variance p true) r = .ok (.fin vd)) :
    (0 < vd → ∀ ρ : ℝ, 12 * Bd ^ 2 * 2 ^ (-42 : ℤ) ≤ ρ * vd → ρ < 1 → ∀ (h w : ℕ) (l : List Shot), 0 < h * w → h * w ≤ 2 ^ 51 →
      T.depth (h * w) ≤ 2 ^ 52 → ShotsSized h w l → r'.temporal = Ieee.temporal T h w l → ∀ (q' q : LSQ ℝ) (t k' k : ℝ), 0 < t →
      val (Ieee.gain q') r' = .ok (.fin k') → 1 / 2 ^ 100 ≤ k' → k' ≤ 2 ^ 100 →
      val (K q) r = .ok (.fin k) → 0 < k → Close t k' k →
      ∃ a, val (Ieee.dsnu q' (varianceF64 p true)) r' = .ok (.num (.fin a)) ∧
        val (dsnu q (variance p true)) r = .ok (.num (.fin (√vd / k))) ∧
        Close ((1 - ρ) * t * (1 - 2 ^ (-53 : ℤ)) ^ 2) a (√vd / k)) ∧
    ∀ vb : ℝ, val (variance p false) r = .ok (.fin vb) → vd < vb →
      ∀ ρ : ℝ, 12 * (Bb ^ 2 + Bd ^ 2) * 2 ^ (-41 : ℤ) ≤ ρ * (vb - vd) → ρ < 1 →
      ∀ μb μd σ : ℝ, r.spatial.bright.avg_mean = .fin μb → r.spatial.dark.avg_mean = .fin μd → μd < μb →
      (Bb + Bd) * 2 ^ (-43 : ℤ) ≤ σ * (μb - μd) → σ < 1 →
      ∃ a, val (Ieee.prnu (varianceF64 p)) r' = .ok (.fin a) ∧
        val (prnu (variance p)) r = .ok (.fin (√(vb - vd) * 100 / (μb - μd))) ∧
        Close ((1 - ρ) * (1 - σ) * (1 - 2 ^ (-53 : ℤ)) ^ 3) a (√(vb - vd) * 100 / (μb - μd)) := by
  have hMle : M ≤ 2 ^ 40 := le_trans (Nat.le_mul_of_pos_right M (by omega)) hn
  have hNle : N ≤ 2 ^ 40 := le_trans (Nat.le_mul_of_pos_left N (by omega)) hn
  have len : ∀ {imgs : List Img} {B : ℕ}, Stack imgs M N B → StackF64 T imgs M N := by
    intro imgs B h
    have hLle : imgs.length ≤ 2 ^ 12 := by
      by_contra hc
      rw [not_le] at hc
      have h1 : (2 ^ 12) ^ 3 < imgs.length ^ 3 := Nat.pow_lt_pow_left hc (by norm_num)
      have h2 := h.few
      norm_num at h1 h2
      omega
    exact ⟨h.two, h.shape, hn.trans (by norm_num), h.few.trans (by norm_num), (Nat.mul_le_mul hLle hMle).trans (by norm_num),
      (Nat.mul_le_mul hLle hNle).trans (by norm_num), by nlinarith, fun n hn => (dep n hn).trans (by norm_num)⟩
  have md : Measured dark M N true r' r := ⟨xd, T.free, dep, ed.trans (stack_grid T (len hd)).2⟩
  have mb : Measured bright M N false r' r := ⟨xb, T.free, dep, eb.trans (stack_grid T (len hb)).2⟩
  obtain ⟨H1, H2⟩ := C96_float64 dark bright M N Bd Bb hd hb hM hN hn r' r md mb p vd evd
  obtain ⟨-, l2, -, l4⟩ := C107_limits T dark bright M N (len hd) (len hb) r' ed eb p
  refine ⟨fun h0 ρ h1 h2 h w l n0 n1 n2 hs et q' q t k' k ht e1 k1 k2 e3 hk c => ?_, fun vb h1 h2 => ?_⟩
  · have e2 := (C106_fits T n0 n1 n2 hs q' r' et).2.2 ▸ e1
    rw [l4 h w l n0 n1 n2 hs et q' k' e1 k1 k2]
    exact H1 h0 ρ h1 h2 q' q t k' k ht e2 e3 hk c
  · rw [l2]
    exact H2 vb h1 h2

end

end Emva
