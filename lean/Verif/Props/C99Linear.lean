import Verif.Props.C99Example
import Verif.Props.C35

/-!
C99, continued: the linearity.
-/
set_option autoImplicit false
namespace Emva
namespace Nearby
open Results Data Spec Filter Topology Asymptotics Fit

variable {r : Res ℝ} {uy ud sy sd : List ℝ}

theorem Ty.min {y z : ℝ × Res ℝ → ℝ} {x w : ℝ} (h : Ty r y x) (k : Ty r z w) : Ty r (fun p => min (y p) (z p)) (min x w) := by
  have h1 : (fun p => |y p - x| + |z p - w|) =O[vic r] (Prod.fst : ℝ × Res ℝ → ℝ) :=
    (isBigO_abs_left.2 h).add (isBigO_abs_left.2 k)
  refine (IsBigO.of_bound 1 <| Eventually.of_forall fun p => ?_).trans h1
  have h0 : 0 ≤ |y p - x| + |z p - w| := by positivity
  rw [one_mul, Real.norm_eq_abs, Real.norm_eq_abs, abs_of_nonneg h0]
  refine (abs_min_sub_min_le_max _ _ _ _).trans (max_le ?_ ?_)
  · linarith [abs_nonneg (z p - w)]
  · linarith [abs_nonneg (y p - x)]

theorem Ty.neg {y : ℝ × Res ℝ → ℝ} {x : ℝ} (h : Ty r y x) : Ty r (fun p => -y p) (-x) := by
  simpa using (Ty.const 0).sub h

theorem Ty.minList {I : List ℕ} {f : Res ℝ → ℕ → ℝ} (h : ∀ i ∈ I, Ty r (fun p => f p.2 i) (f r i)) (i₀ : ℕ)
    (h0 : Ty r (fun p => f p.2 i₀) (f r i₀)) :
    Ty r (fun p => (I.map (f p.2)).foldr Min.min (f p.2 i₀)) ((I.map (f r)).foldr Min.min (f r i₀)) := by
  induction I with
  | nil => exact h0
  | cons a I ih => exact Ty.min (h a (by simp)) (ih fun i hi => h i (by simp [hi]))

theorem foldr_min_spec (l : List ℝ) (x : ℝ) : (l.foldr Min.min x = x ∨ l.foldr Min.min x ∈ l) ∧
    l.foldr Min.min x ≤ x ∧ ∀ y ∈ l, l.foldr Min.min x ≤ y := by
  induction l with
  | nil => simp
  | cons a l ih =>
    obtain ⟨h1, h2, h3⟩ := ih
    simp only [List.foldr_cons]
    refine ⟨?_, (min_le_right _ _).trans h2, ?_⟩
    · rcases min_choice a (l.foldr Min.min x) with e | e
      · right; rw [e]; simp
      · rw [e]
        rcases h1 with h | h
        · exact .inl h
        · right; simp [h]
    · intro y hy
      rcases List.mem_cons.1 hy with rfl | hy
      · exact min_le_left _ _
      · exact (min_le_right _ _).trans (h3 y hy)

/-- the least value over the positions of `I` -/
theorem min_unique {I : List ℕ} {i₀ : ℕ} (hi : i₀ ∈ I) (f : ℕ → ℝ) {m : ℝ} (h1 : ∃ i ∈ I, m = f i) (h2 : ∀ i ∈ I, m ≤ f i) :
    m = (I.map f).foldr Min.min (f i₀) := by
  obtain ⟨a, b, c⟩ := foldr_min_spec (I.map f) (f i₀)
  refine le_antisymm ?_ ?_
  · rcases a with a | a
    · rw [a]; exact h2 _ hi
    · obtain ⟨i, hi', e⟩ := List.mem_map.1 a
      rw [← e]; exact h2 i hi'
  · obtain ⟨i, hi', rfl⟩ := h1
    exact c _ (List.mem_map_of_mem hi')

end Nearby
open Nearby Results Data Spec Filter Topology Fit

/-- C99: the line of the linearity and the two linearity errors move at most in proportion to the changes of the data, provided the
signals of the linear range are not zero, two irradiations of the range differ, the fitted line does not vanish at a point of the
range, and no signal lies exactly on the limits 5 % and 95 % of the saturation signal. -/
theorem C99_linearity_partial (r : Res ℝ) (uy ud sy sd : List ℝ) (h : DataOk r uy ud sy sd) (hfin : Spec.Nearby 0 r r)
    (hd : Distinct r sy) (k : ℤ) (ys : ℝ) (hk : val indexUysat r = .ok k) (hys : AtIndex (diff uy ud) k ys)
    (ho1 : Off uy ud (5 / 100) ys) (ho2 : Off uy ud (95 / 100) ys) (i j : ℕ) (hi : val indexLinearityMin r = .ok i)
    (hj : val indexLinearityMax r = .ok j) (pts : List (ℝ × ℝ))
    (hpts : pts = ((r.temporal.u_p.zip (diff uy ud)).take (j + 1)).drop i)
    (hy : ∀ p ∈ pts, p.2 ≠ 0) (hx : ∃ p ∈ pts, ∃ p' ∈ pts, p.1 ≠ p'.1)
    (hline : ∀ a b, BestRelLine pts a b → ∀ p ∈ pts, a * p.1 + b ≠ 0) :
    Steady (fun r => (val linearity r).map Linearity.fit_slope) r ∧
    Steady (fun r => (val linearity r).map Linearity.fit_offset) r ∧
    Steady (val LEMin) r ∧ Steady (val LEMax) r := by
  have hjl : j < uy.length := by
    have := (Plots.lastBelow_lt (by rw [h.u_y, h.u_ydark]; simp [h.dark]) hj).1
    rwa [h.u_y, List.length_map] at this
  set I := (List.range (j + 1)).drop i with hI
  let P : Res ℝ → List (ℝ × ℝ) := fun r' => I.map fun n => (pho r' n, sig r' n)
  have hP : ∀ r', Shape uy.length r' → ∀ uy' ud', r'.temporal.u_y = uy'.map Fl.fin → r'.temporal.u_ydark = ud'.map Fl.fin →
      uy' = (List.range uy.length).map (entry r'.temporal.u_y) → ud' = (List.range uy.length).map (entry r'.temporal.u_ydark) →
      ((r'.temporal.u_p.zip (diff uy' ud')).take (j + 1)).drop i = P r' := by
    intro r' hs uy' ud' _ _ e1 e2
    rw [e1, e2, diff_range]
    conv_lhs => rw [hs.u_p]
    rw [zip_range hjl, ← List.map_drop]
    rfl
  have hpr : pts = P r := by
    rw [hpts, diff_sig h]
    conv_lhs => rw [(shape_self h).u_p]
    rw [zip_range hjl, ← List.map_drop]
  have tS : ∀ (f : ℝ × ℝ → ℝ), (∀ n ∈ I, Ty r (fun p => f (pho p.2 n, sig p.2 n)) (f (pho r n, sig r n))) →
      Ty r (fun p => S f (P p.2)) (S f (P r)) := by
    intro f hf
    have := Ty.listSum I hf
    simpa [S, P, Function.comp_def] using this
  have sne : ∀ n ∈ I, sig r n ≠ 0 := fun n hn => hy (pho r n, sig r n) (by rw [hpr]; exact List.mem_map.2 ⟨n, hn, rfl⟩)
  have tA : Ty r (fun p => Lin.A (P p.2)) (Lin.A (P r)) := tS _ fun n hn => (ty_pho n).div (ty_sig n) (sne n hn)
  have tB : Ty r (fun p => Lin.B (P p.2)) (Lin.B (P r)) := tS _ fun n hn =>
    (ty_pho n).div ((ty_sig n).mul (ty_sig n)) (mul_self_ne_zero.2 (sne n hn))
  have tC : Ty r (fun p => Lin.C (P p.2)) (Lin.C (P r)) := tS _ fun n hn =>
    ((ty_pho n).div (ty_sig n) (sne n hn)).mul ((ty_pho n).div (ty_sig n) (sne n hn))
  have tD : Ty r (fun p => Lin.D (P p.2)) (Lin.D (P r)) := tS _ fun n hn => (Ty.const 1).div (ty_sig n) (sne n hn)
  have tE : Ty r (fun p => Lin.E (P p.2)) (Lin.E (P r)) := tS _ fun n hn =>
    (Ty.const 1).div ((ty_sig n).mul (ty_sig n)) (mul_self_ne_zero.2 (sne n hn))
  have hyr : ∀ p ∈ P r, p.2 ≠ 0 := hpr ▸ hy
  have hxr : ∃ p ∈ P r, ∃ p' ∈ P r, p.1 ≠ p'.1 := hpr ▸ hx
  have hdisc := (Lin.disc_pos hyr hxr).ne
  have tΔ := (tB.mul tB).sub (tC.mul tE)
  have ta := ((tB.mul tD).sub (tA.mul tE)).div tΔ hdisc
  have tb := ((tA.mul tB).sub (tC.mul tD)).div tΔ hdisc
  -- Cramer's rule
  have solve : ∀ l : List (ℝ × ℝ), Lin.B l * Lin.B l - Lin.C l * Lin.E l ≠ 0 → ∀ a b, a * Lin.C l + b * Lin.B l = Lin.A l →
      a * Lin.B l + b * Lin.E l = Lin.D l →
      a = (Lin.B l * Lin.D l - Lin.A l * Lin.E l) / (Lin.B l * Lin.B l - Lin.C l * Lin.E l) ∧
      b = (Lin.A l * Lin.B l - Lin.C l * Lin.D l) / (Lin.B l * Lin.B l - Lin.C l * Lin.E l) := by
    intro l hl a b h1 h2
    rw [eq_div_iff hl, eq_div_iff hl, ← h1, ← h2]
    exact ⟨by ring, by ring⟩
  obtain ⟨a₀, b₀, best, n1, n2, -⟩ := C35_best_relative_line r uy ud h.u_y h.u_ydark h.dark.symm h.photons i j hi hj pts hpts hy hx
  rw [hpr] at n1 n2
  obtain ⟨ea, eb⟩ := solve _ hdisc _ _ n1 n2
  have hne0 : ∀ n ∈ I, a₀ * pho r n + b₀ ≠ 0 := fun n hn => hline a₀ b₀ best (pho r n, sig r n) (by
    rw [hpr]; exact List.mem_map.2 ⟨n, hn, rfl⟩)
  rw [← ea] at ta
  rw [← eb] at tb
  let α : Res ℝ → ℝ := fun r' => (Lin.B (P r') * Lin.D (P r') - Lin.A (P r') * Lin.E (P r')) /
    (Lin.B (P r') * Lin.B (P r') - Lin.C (P r') * Lin.E (P r'))
  let β : Res ℝ → ℝ := fun r' => (Lin.A (P r') * Lin.B (P r') - Lin.C (P r') * Lin.D (P r')) /
    (Lin.B (P r') * Lin.B (P r') - Lin.C (P r') * Lin.E (P r'))
  have hα : α r = a₀ := ea.symm
  have hβ : β r = b₀ := eb.symm
  let dev : Res ℝ → ℕ → ℝ := fun r' n => deviation (α r') (β r') (pho r' n, sig r' n)
  have tline : ∀ n, Ty r (fun p => α p.2 * pho p.2 n + β p.2) (a₀ * pho r n + b₀) := fun n =>
    (Ty.mul (y := fun p => α p.2) ta (ty_pho n)).add (z := fun p => β p.2) tb
  have tdev : ∀ n ∈ I, Ty r (fun p => dev p.2 n) (dev r n) := by
    intro n hn
    have := ((Ty.const 100).mul ((ty_sig n).sub (tline n))).div (tline n) (hne0 n hn)
    simpa only [dev, deviation, hα, hβ] using this
  obtain ⟨p₁, hp₁, p₂, hp₂, hp₁₂⟩ := hxr
  obtain ⟨i₁, hi₁, rfl⟩ := List.mem_map.1 hp₁
  obtain ⟨i₂, hi₂, rfl⟩ := List.mem_map.1 hp₂
  have evI : ∀ {Q : ℕ → ℝ × Res ℝ → Prop}, (∀ n ∈ I, ∀ᶠ p in vic r, Q n p) → ∀ᶠ p in vic r, ∀ n ∈ I, Q n p := by
    intro Q hQ
    have hQ' : ∀ L : List ℕ, (∀ n ∈ L, ∀ᶠ p in vic r, Q n p) → ∀ᶠ p in vic r, ∀ n ∈ L, Q n p := by
      intro L
      induction L with
      | nil => simp
      | cons a L ih =>
        intro hL
        filter_upwards [hL a (by simp), ih fun m hm => hL m (by simp [hm])] with p h1 h2
        simpa using ⟨h1, h2⟩
    exact hQ' I hQ
  have ev : ∀ᶠ p in vic r, ∃ l, val linearity p.2 = .ok l ∧ l.fit_slope = .fin (α p.2) ∧ l.fit_offset = .fin (β p.2) ∧
      l.linearity_error_min = .fin ((I.map (dev p.2)).foldr Min.min (dev p.2 i₁)) ∧
      l.linearity_error_max = .fin (-(I.map fun n => -dev p.2 n).foldr Min.min (-dev p.2 i₁)) := by
    filter_upwards [shape_near h, linMin_near h hd hk hys ho1, lastBelow_near h hd hk hys ho2,
      evI fun n hn => (ty_sig n).tendsto.eventually_ne (sne n hn),
      evI fun n hn => (tline n).tendsto.eventually_ne (hne0 n hn),
      ((ty_pho i₁).sub (ty_pho i₂)).tendsto.eventually_ne (sub_ne_zero.2 hp₁₂)] with p hs hmin hmax hsn hln hne
    have hpp := hP p.2 hs _ _ hs.u_y hs.u_ydark rfl rfl
    have hyp : ∀ x ∈ P p.2, x.2 ≠ 0 := by
      intro x hx
      obtain ⟨n, hn, rfl⟩ := List.mem_map.1 hx
      exact hsn n hn
    have hxp : ∃ x ∈ P p.2, ∃ x' ∈ P p.2, x.1 ≠ x'.1 :=
      ⟨_, List.mem_map.2 ⟨i₁, hi₁, rfl⟩, _, List.mem_map.2 ⟨i₂, hi₂, rfl⟩, sub_ne_zero.1 hne⟩
    obtain ⟨a, b, -, m1, m2, hrest⟩ := C35_best_relative_line p.2 _ _ hs.u_y hs.u_ydark (by simp) (by rw [hs.u_p]; simp) i j
      (hmin.trans hi) (hmax.trans hj) (P p.2) hpp.symm hyp hxp
    obtain ⟨e1, e2⟩ := solve _ (Lin.disc_pos hyp hxp).ne _ _ m1 m2
    have e1' : a = α p.2 := e1
    have e2' : b = β p.2 := e2
    subst e1' e2'
    obtain ⟨l, lo, hi', hl, f1, f2, f3, f4, -, ⟨q1, hq1, g1⟩, g2, ⟨q2, hq2, g3⟩, g4⟩ := hrest (by
      intro x hx
      obtain ⟨n, hn, rfl⟩ := List.mem_map.1 hx
      exact hln n hn)
    obtain ⟨n1, hn1, rfl⟩ := List.mem_map.1 hq1
    obtain ⟨n2, hn2, rfl⟩ := List.mem_map.1 hq2
    refine ⟨l, hl, f1, f2, ?_, ?_⟩
    · rw [f3, min_unique hi₁ (dev p.2) ⟨n1, hn1, g1⟩ fun n hn => g2 _ (List.mem_map.2 ⟨n, hn, rfl⟩)]
    · rw [f4, ← min_unique hi₁ (fun n => -dev p.2 n) (m := -hi') ⟨n2, hn2, by rw [g3]⟩
        fun n hn => neg_le_neg (g4 _ (List.mem_map.2 ⟨n, hn, rfl⟩)), neg_neg]
  have tmin := Ty.minList (f := dev) tdev i₁ (tdev i₁ hi₁)
  have tmax := Ty.neg (Ty.minList (f := fun r' n => -dev r' n) (fun n hn => Ty.neg (tdev n hn)) i₁ (Ty.neg (tdev i₁ hi₁)))
  refine ⟨LipM.steady hfin ⟨_, ?_, ta⟩, LipM.steady hfin ⟨_, ?_, tb⟩, LipM.steady hfin ⟨_, ?_, tmin⟩, LipM.steady hfin ⟨_, ?_, tmax⟩⟩
  all_goals filter_upwards [ev] with p ⟨l, hl, f1, f2, f3, f4⟩
  · simp only [hl, Except.map, f1]; rfl
  · simp only [hl, Except.map, f2]; rfl
  · unfold LEMin
    rw [val_bind_ok stable_linearity (by stab) hl, val_pure, f3]
  · unfold LEMax
    rw [val_bind_ok stable_linearity (by stab) hl, val_pure, f4]

/-- the hypotheses hold for the sample: the linear range holds its second and third point -/
example : Steady (val LEMin) sampleReal ∧ Steady (val LEMax) sampleReal := by
  have hoff : ∀ c, c = 5 / 100 ∨ c = 95 / 100 → Off [10, 15, 20, 25, 27] [10, 10, 10, 10, 10] c 15 := by
    intro c hc
    unfold Off
    rw [sampleReal_diff]
    intro y hy
    simp only [List.mem_cons, List.not_mem_nil, or_false] at hy
    rcases hy with rfl | rfl | rfl | rfl | rfl <;> rcases hc with rfl | rfl <;> norm_num
  have hmin : val indexLinearityMin sampleReal = .ok 1 := by
    refine (((C26_linearity_min sampleReal _ _ rfl rfl rfl 3 sampleReal_sat).1 15 sampleReal_at).1 1).2 ?_
    rw [sampleReal_diff]
    refine ⟨⟨5, rfl, by norm_num⟩, fun j x hj hx => ?_⟩
    obtain rfl : j = 0 := by omega
    cases hx; norm_num
  have hmax : val indexLinearityMax sampleReal = .ok 2 := by
    refine (((C26_linearity_max sampleReal _ _ rfl rfl rfl 3 sampleReal_sat).1 15 sampleReal_at).1 2).2 ?_
    rw [sampleReal_diff]
    refine ⟨⟨10, rfl, by norm_num⟩, fun j x hj hx => ?_⟩
    match j, hj with
    | 3, _ => cases hx; norm_num
    | 4, _ => cases hx; norm_num
    | j + 5, _ => simp at hx
  refine (C99_linearity_partial sampleReal _ _ _ _ sampleReal_consistent (sampleReal_near 0 le_rfl) (.inl ⟨3, rfl, by norm_num⟩) 3 15
    sampleReal_sat sampleReal_at (hoff _ (.inl rfl)) (hoff _ (.inr rfl)) 1 2 hmin hmax [(100, 5), (200, 10)] ?_ ?_ ?_ ?_).2.2
  · rw [sampleReal_diff]; rfl
  · intro p hp
    simp only [List.mem_cons, List.not_mem_nil, or_false] at hp
    rcases hp with rfl | rfl <;> norm_num
  · exact ⟨(100, 5), by simp, (200, 10), by simp, by norm_num⟩
  · intro a b hb p hp
    have hab : ((1 / 20, 0) : ℝ × ℝ) = (a, b) := by
      by_contra hne
      have := hb _ _ hne
      have h0 : relErr [((100 : ℝ), (5 : ℝ)), (200, 10)] (1 / 20) 0 = 0 := by norm_num [relErr]
      rw [h0] at this
      exact absurd (relErr_nonneg _ a b) (not_le.2 this)
    obtain ⟨rfl, rfl⟩ := Prod.mk.inj hab
    simp only [List.mem_cons, List.not_mem_nil, or_false] at hp
    rcases hp with rfl | rfl <;> norm_num

end Emva
