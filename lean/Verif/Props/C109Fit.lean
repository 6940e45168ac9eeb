import Verif.Model.IeeeLinearity
import Verif.Props.C106
import Verif.Props.C97

/-!
C109: the fit and the deviations of the linearity neither overflow nor underflow.
-/
set_option autoImplicit false
namespace Emva
open Rounding Data Results

/-- a rounded number that is not small is on a grid -/
theorem tame_b64 {k m : ℤ} {x : ℝ} (h : x = 0 ∨ (2 : ℝ) ^ (-k) ≤ |x|) (h' : |x| ≤ 2 ^ m) : Tame (k + 52) (m + 1) (b64 x) := by
  refine ⟨?_, Tame.rnd_le h'⟩
  rcases eq_or_ne x 0 with h0 | h0
  · exact ⟨0, by simp [h0, b64]⟩
  · have h1 := h.resolve_left h0
    have hlog : -k ≤ Int.log 2 |x| := by
      refine (Int.zpow_le_iff_le_log one_lt_two (abs_pos.2 h0)).1 ?_
      push_cast
      exact h1
    refine ⟨nearestEven (x / ulp x) * 2 ^ (Int.log 2 |x| - 52 + (k + 52)).toNat, ?_⟩
    have : ((Int.log 2 |x| - 52 + (k + 52)).toNat : ℤ) = Int.log 2 |x| - 52 + (k + 52) := Int.toNat_of_nonneg (by omega)
    rw [b64, if_neg h0]
    push_cast
    rw [mul_assoc, ← zpow_natCast, this, ← zpow_add₀ (by norm_num)]
    congr 1
    rw [ulp]; congr 1; ring

theorem Mag.tame {a : ℤ} {x : ℝ} (h : Mag a x) : Tame (a + 52) (a + 1) (b64 x) :=
  tame_b64 (.inr (by rw [abs_of_pos h.pos]; exact h.ge)) (by rw [abs_of_pos h.pos]; exact h.le)

/-- a sum of numbers on a grid -/
theorem sum_rep (T : ISum) {α : Type} (P : List α) (f : α → ℝ) (k m : ℤ) (h : ∀ p ∈ P, Tame k m (f p)) (hk : k ≤ 1022) (hm : m ≤ 1001)
    (hn : P.length ≤ 2 ^ 20) (hd : T.depth P.length ≤ 2 ^ 52) :
    Rep k (m + 22) (T.sum ((P.map f).map .fin)) (T.free.sum (P.map f)) := by
  have hf : List.Forall₂ (Rep k m) ((P.map f).map Fl.fin) (P.map f) := by
    clear hn hd
    induction P with
    | nil => exact .nil
    | cons p P ih => exact .cons ⟨rfl, h p (by simp)⟩ (ih fun q hq => h q (List.mem_cons_of_mem _ hq))
  refine (T.rep 20 hf hk (by omega) (by rwa [List.length_map]) ?_).weaken le_rfl (by omega)
  rw [List.length_map]
  exact_mod_cast hn

theorem rd_div_fin {x y b : ℝ} (h : Rounded.rd binary64 (.fin x / .fin y) = .fin b) : y ≠ 0 := by
  rintro rfl
  rw [Fl.fin_div_zero] at h
  split at h <;> simp [Rounded.rd] at h

/-- the fit with and without the limits -/
theorem ieee_linFit (T : ISum) (P : List (ℝ × ℝ)) (hP : ∀ p ∈ P, Mag 32 p.1 ∧ Mag 32 p.2) (hn : P.length ≤ 2 ^ 20)
    (hd : T.depth P.length ≤ 2 ^ 52) (X Y : List (Fl ℝ)) (hX : X = P.map fun p => Fl.fin p.1) (hY : Y = P.map fun p => Fl.fin p.2)
    (a b : ℝ) (h : Rounded.linFit binary64 T.free X Y = .ok (.fin a, .fin b)) :
    Ieee.linFit T X Y = .ok (.fin a, .fin b) ∧ Tame 930 825 a ∧ Tame 570 516 b := by
  have one : Same 0 (.fin 1) (.fin 1) 1 := Same.of ⟨by norm_num, by norm_num⟩
  have bin : ∀ (op : Fl ℝ → Fl ℝ → Fl ℝ) (f : ℝ × ℝ → ℝ), (∀ p ∈ P, op (.fin p.1) (.fin p.2) = .fin (f p)) →
      Np.bin op X Y = .ok ((P.map f).map .fin) := by
    intro op f hf
    rw [Np.bin_eq_len _ _ _ (by rw [hX, hY]; simp), hX, hY, List.zipWith_map, List.zipWith_self, List.map_map]
    exact congrArg _ (List.map_congr_left hf)
  have q1 : ∀ p ∈ P, Same 65 (rounded (.fin p.1 / .fin p.2)) (Rounded.rd binary64 (.fin p.1 / .fin p.2)) (b64 (p.1 / p.2)) :=
    fun p hp => ((Same.of (hP p hp).1).div (Same.of (hP p hp).2)).rnd (by norm_num)
  have q0 : ∀ p ∈ P, Same 65 (rounded (Fl.sq (.fin p.2))) (Rounded.rd binary64 (Fl.sq (.fin p.2))) (b64 (p.2 * p.2)) :=
    fun p hp => ((Same.of (hP p hp).2).mul (Same.of (hP p hp).2)).rnd (by norm_num)
  have q2 : ∀ p ∈ P, Same 98 (rounded (.fin p.1 / rounded (Fl.sq (.fin p.2))))
      (Rounded.rd binary64 (.fin p.1 / Rounded.rd binary64 (Fl.sq (.fin p.2)))) (b64 (p.1 / b64 (p.2 * p.2))) :=
    fun p hp => ((Same.of (hP p hp).1).div (q0 p hp)).rnd (by norm_num)
  have q3 : ∀ p ∈ P, Same 131 (rounded (Fl.sq (.fin (b64 (p.1 / p.2))))) (Rounded.rd binary64 (Fl.sq (.fin (b64 (p.1 / p.2)))))
      (b64 (b64 (p.1 / p.2) * b64 (p.1 / p.2))) :=
    fun p hp => ((Same.of (q1 p hp).mag).mul (Same.of (q1 p hp).mag)).rnd (by norm_num)
  have q4 : ∀ p ∈ P, Same 33 (rounded (.fin 1 / .fin p.2)) (Rounded.rd binary64 (.fin 1 / .fin p.2)) (b64 (1 / p.2)) :=
    fun p hp => (one.div (Same.of (hP p hp).2)).rnd (by norm_num)
  have q5 : ∀ p ∈ P, Same 66 (rounded (.fin 1 / rounded (Fl.sq (.fin p.2))))
      (Rounded.rd binary64 (.fin 1 / Rounded.rd binary64 (Fl.sq (.fin p.2)))) (b64 (1 / b64 (p.2 * p.2))) :=
    fun p hp => (one.div (q0 p hp)).rnd (by norm_num)
  -- the sums
  obtain ⟨A, hA⟩ : ∃ A, A = T.free.sum (P.map fun p => b64 (p.1 / p.2)) := ⟨_, rfl⟩
  obtain ⟨B, hB⟩ : ∃ B, B = T.free.sum (P.map fun p => b64 (p.1 / b64 (p.2 * p.2))) := ⟨_, rfl⟩
  obtain ⟨C, hC⟩ : ∃ C, C = T.free.sum (P.map fun p => b64 (b64 (p.1 / p.2) * b64 (p.1 / p.2))) := ⟨_, rfl⟩
  obtain ⟨D, hD⟩ : ∃ D, D = T.free.sum (P.map fun p => b64 (1 / p.2)) := ⟨_, rfl⟩
  obtain ⟨E, hE⟩ : ∃ E, E = T.free.sum (P.map fun p => b64 (1 / b64 (p.2 * p.2))) := ⟨_, rfl⟩
  have rA := sum_rep T P (fun p => b64 (p.1 / p.2)) 116 65 (fun p hp => ((hP p hp).1.div (hP p hp).2).tame) (by norm_num) (by norm_num) hn hd
  have rB := sum_rep T P (fun p => b64 (p.1 / b64 (p.2 * p.2))) 149 98 (fun p hp => ((hP p hp).1.div (q0 p hp).mag).tame) (by norm_num)
    (by norm_num) hn hd
  have rC := sum_rep T P (fun p => b64 (b64 (p.1 / p.2) * b64 (p.1 / p.2))) 182 131 (fun p hp => ((q1 p hp).mag.mul (q1 p hp).mag).tame)
    (by norm_num) (by norm_num) hn hd
  have rD := sum_rep T P (fun p => b64 (1 / p.2)) 84 33 (fun p hp => (one.mag.div (hP p hp).2).tame) (by norm_num) (by norm_num) hn hd
  have rE := sum_rep T P (fun p => b64 (1 / b64 (p.2 * p.2))) 117 66 (fun p hp => (one.mag.div (q0 p hp).mag).tame) (by norm_num)
    (by norm_num) hn hd
  rw [← hA] at rA
  rw [← hB] at rB
  rw [← hC] at rC
  rw [← hD] at rD
  rw [← hE] at rE
  -- the fit without limits
  have h' : Rounded.linFit binary64 T.free X Y =
      let b := Rounded.rd binary64 (.fin (b64 (b64 (A * B) - b64 (C * D))) / .fin (b64 (b64 (B * B) - b64 (C * E))))
      .ok (Rounded.rd binary64 (Rounded.rd binary64 (.fin A - Rounded.rd binary64 (b * .fin B)) / .fin C), b) := by
    unfold Rounded.linFit
    rw [bin _ _ fun p hp => (q1 p hp).right, bin _ _ fun p hp => (q2 p hp).right]
    have e3 : (List.map Fl.fin (List.map (fun p : ℝ × ℝ => b64 (p.1 / p.2)) P)).map (fun z => Rounded.rd binary64 (Fl.sq z)) =
        (P.map fun p => b64 (b64 (p.1 / p.2) * b64 (p.1 / p.2))).map Fl.fin := by
      rw [List.map_map, List.map_map, List.map_map]
      exact List.map_congr_left fun p hp => (q3 p hp).right
    have e4 : Y.map (fun y => Rounded.rd binary64 (.fin 1 / y)) = (P.map fun p => b64 (1 / p.2)).map Fl.fin := by
      rw [hY, List.map_map, List.map_map]
      exact List.map_congr_left fun p hp => (q4 p hp).right
    have e5 : Y.map (fun y => Rounded.rd binary64 (.fin 1 / Rounded.rd binary64 (Fl.sq y))) =
        (P.map fun p => b64 (1 / b64 (p.2 * p.2))).map Fl.fin := by
      rw [hY, List.map_map, List.map_map]
      exact List.map_congr_left fun p hp => (q5 p hp).right
    show Except.ok _ = _
    rw [e3, e4, e5, fsum_fin, fsum_fin, fsum_fin, fsum_fin, fsum_fin, ← hA, ← hB, ← hC, ← hD, ← hE]
    rfl
  rw [h'] at h
  simp only [Except.ok.injEq, Prod.mk.injEq] at h
  obtain ⟨h1, h2⟩ := h
  rw [h2] at h1
  have d0 := rd_div_fin h2
  have c0 : C ≠ 0 := rd_div_fin (x := b64 (A - b64 (b * B))) h1
  -- the fit with limits
  have n1 := ((rA.mul rB (by norm_num) (by norm_num)).weaken (show _ ≤ (266 : ℤ) by norm_num) (show _ ≤ (209 : ℤ) by norm_num)).sub
    ((rC.mul rD (by norm_num) (by norm_num)).weaken (by norm_num) (by norm_num)) (by norm_num) (by norm_num)
  have n2 : Rep 299 244 _ _ := (((rB.mul rB (by norm_num) (by norm_num)).weaken (show _ ≤ (299 : ℤ) by norm_num) (show _ ≤ (242 : ℤ) by norm_num)).sub
    ((rC.mul rE (by norm_num) (by norm_num)).weaken (by norm_num) (by norm_num)) (by norm_num) (by norm_num)).weaken (by norm_num) (by norm_num)
  have rb := (n1.div n2.eq (n2.tame.low.resolve_left d0) n2.tame.le (by norm_num) (by norm_num)).weaken
    (show _ ≤ (570 : ℤ) by norm_num) (show _ ≤ (516 : ℤ) by norm_num)
  have eb : b64 (b64 (b64 (A * B) - b64 (C * D)) / b64 (b64 (B * B) - b64 (C * E))) = b := by
    rw [Fl.fin_div d0] at h2
    exact Fl.fin_injective h2
  rw [eb] at rb
  have m1 := (rA.weaken (show _ ≤ (719 : ℤ) by norm_num) (show _ ≤ (637 : ℤ) by norm_num)).sub
    ((rb.mul rB (by norm_num) (by norm_num)).weaken (by norm_num) (by norm_num)) (by norm_num) (by norm_num)
  have ra := (m1.div rC.eq (rC.tame.low.resolve_left c0) rC.tame.le (by norm_num) (by norm_num))
  have ea : b64 (b64 (A - b64 (b * B)) / C) = a := by
    rw [show Rounded.rd binary64 (Fl.fin b * Fl.fin B) = .fin (b64 (b * B)) from rfl, Fl.fin_sub] at h1
    have h1' : Rounded.rd binary64 (.fin (b64 (A - b64 (b * B))) / .fin C) = .fin a := h1
    rw [Fl.fin_div c0] at h1'
    exact Fl.fin_injective h1'
  rw [ea] at ra
  refine ⟨?_, ra.tame.weaken (by norm_num) (by norm_num), rb.tame⟩
  unfold Ieee.linFit
  rw [bin _ _ fun p hp => (q1 p hp).left, bin _ _ fun p hp => (q2 p hp).left]
  have e3 : (List.map Fl.fin (List.map (fun p : ℝ × ℝ => b64 (p.1 / p.2)) P)).map (fun z => rounded (Fl.sq z)) =
      (P.map fun p => b64 (b64 (p.1 / p.2) * b64 (p.1 / p.2))).map Fl.fin := by
    rw [List.map_map, List.map_map, List.map_map]
    exact List.map_congr_left fun p hp => (q3 p hp).left
  have e4 : Y.map (fun y => rounded (.fin 1 / y)) = (P.map fun p => b64 (1 / p.2)).map Fl.fin := by
    rw [hY, List.map_map, List.map_map]
    exact List.map_congr_left fun p hp => (q4 p hp).left
  have e5 : Y.map (fun y => rounded (.fin 1 / rounded (Fl.sq y))) = (P.map fun p => b64 (1 / b64 (p.2 * p.2))).map Fl.fin := by
    rw [hY, List.map_map, List.map_map]
    exact List.map_congr_left fun p hp => (q5 p hp).left
  show Except.ok _ = _
  rw [e3, e4, e5]
  exact congrArg _ (Prod.ext (by
    show rounded (rounded (_ - rounded (rounded (rounded _ / rounded (rounded (_ * _) - _)) * _)) / _) = _
    rw [rb.eq]
    have := ra.eq
    rw [rb.eq] at this
    exact this) rb.eq)

/-- a deviation with and without the limits -/
theorem ieee_dev {a b x y : ℝ} (ha : Tame 930 825 a) (hb : Tame 570 516 b) (hx : x = 0 ∨ Mag 32 x) (hy : Tame 105 67 y)
    (h1 : (2 : ℝ) ^ (-60 : ℤ) ≤ |b64 (b64 (a * x) + b)|) (h2 : |b64 (b64 (a * x) + b)| ≤ 2 ^ (60 : ℤ)) :
    Ieee.dev (.fin a) (.fin b) (.fin y) (.fin x) = Rounded.dev binary64 (.fin a) (.fin b) (.fin y) (.fin x) := by
  have ax : (a * x = 0 ∨ (2 : ℝ) ^ (-962 : ℤ) ≤ |a * x|) ∧ |a * x| ≤ 2 ^ (857 : ℤ) := by
    rcases hx with rfl | hx
    · simp
    · constructor
      · refine ha.low.imp (fun h => by rw [h, zero_mul]) fun h => ?_
        rw [abs_mul, show (-962 : ℤ) = -930 + -32 by norm_num, zpow_add₀ (by norm_num), abs_of_pos hx.pos]
        exact mul_le_mul h hx.ge (two_pos_zpow _).le (abs_nonneg _)
      · rw [abs_mul, show (857 : ℤ) = 825 + 32 by norm_num, zpow_add₀ (by norm_num), abs_of_pos hx.pos]
        exact mul_le_mul ha.le hx.le hx.pos.le (two_pos_zpow _).le
  have r1 : Rep 1014 858 (rounded (.fin a * .fin x)) (b64 (a * x)) :=
    ⟨f64_eq (ax.1.imp_right fun h => (two_zpow_mono (by norm_num)).trans h) (ax.2.trans (two_zpow_mono (by norm_num))), tame_b64 ax.1 ax.2⟩
  have rb : Rep 1014 858 (Fl.fin b) b := ⟨rfl, hb.weaken (by norm_num) (by norm_num)⟩
  have rf := r1.add rb (by norm_num) (by norm_num)
  set s := b64 (a * x) + b with hs
  obtain ⟨f, hf⟩ : ∃ f, f = b64 s := ⟨_, rfl⟩
  rw [← hf] at h1 h2 rf
  have near := binary64.err s
  have u1 : (2 : ℝ) ^ (-53 : ℤ) ≤ 1 / 100 := by norm_num
  have near' : |f - s| ≤ 1 / 100 * |s| := by
    rw [hf]
    exact near.trans (mul_le_mul_of_nonneg_right u1 (abs_nonneg _))
  have n1 : |f| ≤ 2 * |s| := by
    have := abs_add_le (f - s) s
    rw [sub_add_cancel] at this
    linarith [abs_nonneg s]
  have n2 : |s| ≤ 2 * |f| := by
    have := abs_add_le (s - f) f
    rw [sub_add_cancel, abs_sub_comm s f] at this
    linarith [abs_nonneg s]
  have tf : Tame 113 62 f := by
    rw [hf]
    refine tame_b64 (k := 61) (m := 61) (.inr ?_) ?_
    · have e : (2 : ℝ) ^ (-61 : ℤ) * 2 = 2 ^ (-60 : ℤ) := by rw [← zpow_add_one₀ (by norm_num)]; norm_num
      rw [← e] at h1
      linarith only [h1, n1]
    · rw [show (61 : ℤ) = 60 + 1 by norm_num, zpow_add₀ (by norm_num)]
      have : (2 : ℝ) ^ (1 : ℤ) = 2 := by norm_num
      rw [this]
      linarith only [h2, n2]
  have f0 : f ≠ 0 := abs_pos.1 ((two_pos_zpow _).trans_le h1)
  have r2 : Rep 113 69 (rounded (.fin y - .fin f)) (b64 (y - f)) :=
    Rep.sub (m := 67) ⟨rfl, hy.weaken (by norm_num) le_rfl⟩ ⟨rfl, tf.weaken le_rfl (by norm_num)⟩ (by norm_num) (by norm_num)
  have r3 : Rep 0 7 (Fl.fin 100) 100 := ⟨rfl, ⟨⟨100, by norm_num⟩, by norm_num⟩⟩
  have r4 := (r3.mul r2 (by norm_num) (by norm_num)).div (Y := .fin f) rfl h1 h2 (by norm_num) (by norm_num)
  have e1 : Ieee.dev (.fin a) (.fin b) (.fin y) (.fin x) = .fin (b64 (b64 (100 * b64 (y - f)) / f)) := by
    unfold Ieee.dev
    rw [show rounded (rounded (.fin a * .fin x) + .fin b) = .fin f from rf.eq]
    exact r4.eq
  rw [e1]
  simp only [Rounded.dev, Rounded.rd, Fl.fin_mul, Fl.fin_add, Fl.fin_sub]
  change _ = match Fl.fin (b64 (100 * b64 (y - b64 s))) / Fl.fin (b64 s) with | .fin x => Fl.fin (b64 x) | z => z
  rw [← hf, Fl.fin_div f0]

end Emva
