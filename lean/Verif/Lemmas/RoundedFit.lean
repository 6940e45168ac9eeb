import Verif.Lemmas.OffBy
import Verif.Model.RoundedLinearity
import Verif.Props.C35
import Verif.Props.C95Data

/-!
The linearity fit in floating point: errors of the sums, of the line and of the deviations.
-/
set_option autoImplicit false
namespace Emva
open Spec Data Results Fit

section
variable {u : ℝ} {R : Rounding u}

/-- a sum of nonnegative numbers in floating point agrees with the sum up to a factor -/
theorem SumOf.close {l : List ℝ} {s : ℝ} {d : ℕ} (h : SumOf R l s d) (hu : u ≤ 1) :
    (∀ x ∈ l, 0 ≤ x) → Close ((1 - u) ^ d) s l.sum := by
  have hu0 := R.u_nonneg
  have h0 : 0 ≤ 1 - u := by linarith
  induction h with
  | nil => intro _; simp [Close]
  | one x => intro hx; simpa using Close.refl (t := 1) (hx x (List.mem_singleton_self x)) le_rfl
  | @add l l' s s' d _ _ ih ih' =>
    intro hx
    have c := Close.add (ih fun x h => hx x (List.mem_append_left _ h)) (ih' fun x h => hx x (List.mem_append_right _ h))
    rw [List.sum_append, pow_succ']
    exact Close.trans (Close.rnd R hu c.1) c h0 (pow_nonneg h0 _)
  | @perm l l' s d _ hp ih =>
    intro hx
    rw [← hp.sum_eq]
    exact ih fun x h => hx x (hp.mem_iff.1 h)
  | @depth l s d d' _ hd ih =>
    intro hx
    exact Close.mono (ih hx) (pow_le_pow_of_le_one h0 (by linarith) hd)

theorem Spec.OffBy.step {n : ℕ} {V x y : ℝ} (H : OffBy ((1 / (1 - u)) ^ n) V x y) (hu : u < 1) :
    OffBy ((1 / (1 - u)) ^ (n + 1)) V (R.rnd x) y := by
  have h0 := R.u_nonneg
  have hs : 0 < 1 - u := by linarith
  have he : 1 ≤ 1 / (1 - u) := by rw [le_div_iff₀ hs]; linarith
  have hp : 1 ≤ (1 / (1 - u)) ^ n := one_le_pow₀ he
  refine (OffBy.rnd R H).mono ?_ le_rfl ?_
  · rw [pow_succ]
    refine mul_le_mul_of_nonneg_left ?_ (by linarith)
    rw [le_div_iff₀ hs]
    have : (1 + u) * (1 - u) = 1 - u * u := by ring
    have := mul_nonneg h0 h0
    linarith
  · exact one_le_mul_of_one_le_of_one_le hp (by linarith)

theorem Spec.OffBy.up {n m : ℕ} {V x y : ℝ} (H : OffBy ((1 / (1 - u)) ^ n) V x y) (h0 : 0 ≤ u) (hu : u < 1) (h : n ≤ m) :
    OffBy ((1 / (1 - u)) ^ m) V x y := by
  have hs : 0 < 1 - u := by linarith
  have he : 1 ≤ 1 / (1 - u) := by rw [le_div_iff₀ hs]; linarith
  exact H.mono (pow_le_pow_right₀ he h) le_rfl (one_le_pow₀ he)

theorem Spec.OffBy.of_close_pow {n : ℕ} {x y : ℝ} (h : Close ((1 - u) ^ n) x y) (hu : u < 1) :
    OffBy ((1 / (1 - u)) ^ n) y x y := by
  have hs : 0 < 1 - u := by linarith
  have := OffBy.of_close h (pow_pos hs n)
  rwa [one_div_pow]

theorem Spec.OffBy.of_rnd (x : ℝ) (hu : u < 1) : OffBy ((1 / (1 - u)) ^ 1) |x| (R.rnd x) x := by
  have : OffBy ((1 / (1 - u)) ^ 0) |x| x x := by simpa using OffBy.exact le_rfl
  exact this.step hu

/-- The line from sums that agree up to a factor. -/
theorem line_err (hu1 : u < 1) {N : ℕ} {A B C D E A' B' C' D' E' a b : ℝ} (hA : Close ((1 - u) ^ N) A' A)
    (hB : Close ((1 - u) ^ N) B' B) (hC : Close ((1 - u) ^ N) C' C) (hD : Close ((1 - u) ^ N) D' D)
    (hE : Close ((1 - u) ^ N) E' E) (hC0 : 0 < C) (hdet : B * B - C * E < 0)
    (h1 : a * C + b * B = A) (h2 : a * B + b * E = D)
    (hc : ((1 / (1 - u)) ^ (2 * N + 2) - 1) * (B * B + C * E) ≤ (C * E - B * B) / 2) :
    let den := R.rnd (R.rnd (B' * B') - R.rnd (C' * E'))
    let b' := R.rnd (R.rnd (R.rnd (A' * B') - R.rnd (C' * D')) / den)
    let a' := R.rnd (R.rnd (A' - R.rnd (b' * B')) / C')
    let Vb := 4 * (A * B + C * D) * (B * B + C * E) / (C * E - B * B) ^ 2
    den ≠ 0 ∧ C' ≠ 0 ∧ OffBy ((1 / (1 - u)) ^ (2 * N + 3)) Vb b' b ∧
      OffBy ((1 / (1 - u)) ^ (4 * N + 6)) ((A + Vb * B) / C) a' a := by
  intro den b' a' Vb
  have h0 := R.u_nonneg
  have hs : 0 < 1 - u := by linarith
  have he : 1 ≤ 1 / (1 - u) := by rw [le_div_iff₀ hs]; linarith
  have hp : ∀ n, 1 ≤ (1 / (1 - u)) ^ n := fun n => one_le_pow₀ he
  have oA := OffBy.of_close_pow hA hu1
  have oB := OffBy.of_close_pow hB hu1
  have oC := OffBy.of_close_pow hC hu1
  have oD := OffBy.of_close_pow hD hu1
  have oE := OffBy.of_close_pow hE hu1
  have mul2 : ∀ {n m : ℕ} {V W x y z w : ℝ}, OffBy ((1 / (1 - u)) ^ n) V x y → OffBy ((1 / (1 - u)) ^ m) W z w →
      OffBy ((1 / (1 - u)) ^ (n + m + 1)) (V * W) (R.rnd (x * z)) (y * w) := fun {n m} {V W x y z w} h h' => by
    refine OffBy.step (R := R) ?_ hu1
    rw [pow_add]
    exact OffBy.mul h h' (hp _)
  have num := ((mul2 oA oB).sub (mul2 oC oD)).step (R := R) hu1
  have dn := ((mul2 oB oB).sub (mul2 oC oE)).step (R := R) hu1
  rw [show N + N + 1 + 1 = 2 * N + 2 by ring] at num dn
  obtain ⟨d0, q⟩ := OffBy.div num dn (hp _) hdet.ne (by rw [abs_of_neg hdet]; linarith)
  have ob : OffBy ((1 / (1 - u)) ^ (2 * N + 3)) Vb b' b := by
    have := q.step (R := R) hu1
    have e : (A * B - C * D) / (B * B - C * E) = b := by
      rw [div_eq_iff hdet.ne, ← h1, ← h2]; ring
    rw [e] at this
    have e2 : (B * B - C * E) ^ 2 = (C * E - B * B) ^ 2 := by ring
    rw [e2] at this
    exact this
  have ht : (1 - u) ^ N > 0 := pow_pos hs N
  have oa : OffBy ((1 / (1 - u)) ^ (4 * N + 6)) ((A + Vb * B) / C) a' a := by
    have k1 := mul2 ob oB
    have k2 := ((oA.up h0 hu1 (by omega : N ≤ 2 * N + 3 + N + 1)).sub k1).step (R := R) hu1
    have k3 := OffBy.div_close k2 (hp _) hC ht hC0
    rw [← one_div_pow, ← pow_add] at k3
    have k4 := k3.step (R := R) hu1
    have e : (A - b * B) / C = a := by rw [div_eq_iff hC0.ne', ← h1]; ring
    rw [e] at k4
    rw [show 4 * N + 6 = 2 * N + 3 + N + 1 + 1 + N + 1 by ring]
    exact k4
  exact ⟨d0, (Close.pos hC ht hC0).ne', ob, oa⟩

/-- The deviation of a point. -/
theorem dev_err (hu1 : u < 1) {N : ℕ} {a a' b b' Va Vb x y : ℝ} (ob : OffBy ((1 / (1 - u)) ^ (2 * N + 3)) Vb b' b)
    (oa : OffBy ((1 / (1 - u)) ^ (4 * N + 6)) Va a' a) (hf : a * x + b ≠ 0)
    (hc : ((1 / (1 - u)) ^ (4 * N + 10) - 1) * (Va * |x| + Vb) ≤ |a * x + b| / 2) :
    let f' := R.rnd (R.rnd (a' * x) + b')
    let V := Va * |x| + Vb
    f' ≠ 0 ∧ OffBy ((1 / (1 - u)) ^ (4 * N + 11)) (4 * (100 * (|y| + V)) * V / (a * x + b) ^ 2)
      (R.rnd (R.rnd (100 * R.rnd (R.rnd y - f')) / f')) (deviation a b (x, y)) := by
  intro f' V
  have h0 := R.u_nonneg
  have hs : 0 < 1 - u := by linarith
  have he : 1 ≤ 1 / (1 - u) := by rw [le_div_iff₀ hs]; linarith
  have hp : ∀ n, 1 ≤ (1 / (1 - u)) ^ n := fun n => one_le_pow₀ he
  have ox : OffBy ((1 / (1 - u)) ^ 0) |x| x x := by simpa using OffBy.exact le_rfl
  have o100 : OffBy ((1 / (1 - u)) ^ 0) 100 100 (100 : ℝ) := by simpa using OffBy.exact (y := (100 : ℝ)) (by norm_num)
  have k1 := oa.mul ox (hp _)
  rw [← pow_add] at k1
  have k2 := k1.step (R := R) hu1
  have kf : OffBy ((1 / (1 - u)) ^ (4 * N + 8)) V f' (a * x + b) :=
    (k2.add (ob.up h0 hu1 (by omega : 2 * N + 3 ≤ 4 * N + 6 + 0 + 1))).step (R := R) hu1
  have ky := (OffBy.of_rnd (R := R) y hu1).up h0 hu1 (by omega : 1 ≤ 4 * N + 8)
  have k3 := (ky.sub kf).step (R := R) hu1
  have k4 := o100.mul k3 (hp _)
  rw [← pow_add] at k4
  have k5 := k4.step (R := R) hu1
  rw [show 0 + (4 * N + 8 + 1) + 1 = 4 * N + 10 by ring] at k5
  have kf' := kf.up h0 hu1 (by omega : 4 * N + 8 ≤ 4 * N + 10)
  obtain ⟨d0, q⟩ := OffBy.div k5 kf' (hp _) hf hc
  exact ⟨d0, q.step (R := R) hu1⟩

end

section
variable {u : ℝ} (R : Rounding u) (S' : RSum R)

theorem fsum_fin (l : List ℝ) : Rounded.fsum R S' (l.map .fin) = .fin (S'.sum l) := by
  rw [Rounded.fsum, finite?_map]

/-- a sum over points in floating point -/
theorem sum_close (hu : u < 1) {n : ℕ} {f' f : ℝ × ℝ → ℝ} {pts : List (ℝ × ℝ)} (h : ∀ p ∈ pts, Close ((1 - u) ^ n) (f' p) (f p)) :
    Close ((1 - u) ^ (n + S'.depth pts.length)) (S'.sum (pts.map f')) (S f pts) := by
  have hs : 0 < 1 - u := by linarith
  have h1 := (S'.spec (pts.map f')).close hu.le (by
    intro x hx
    obtain ⟨p, hp, rfl⟩ := List.mem_map.1 hx
    exact (h p hp).1)
  have h2 := Close.trans h1 (close_sum h) (by positivity) (by positivity)
  rw [← pow_add, List.length_map, add_comm] at h2
  exact h2

theorem zipWith_rnd (op : Fl ℝ → Fl ℝ → Fl ℝ) (f : ℝ × ℝ → ℝ) (X Y : List ℝ)
    (h : ∀ p ∈ X.zip Y, op (.fin p.1) (.fin (R.rnd p.2)) = .fin (f p)) :
    List.zipWith op (X.map .fin) ((Y.map R.rnd).map .fin) = ((X.zip Y).map f).map .fin := by
  rw [← Lin.zipWith_fin (fun x y => op x (Rounded.rd R y)) f X Y h]
  simp [List.zipWith_map, Rounded.rd]

theorem map_snd (g : ℝ → ℝ) (X Y : List ℝ) (hl : X.length = Y.length) : Y.map g = (X.zip Y).map fun p => g p.2 := by
  conv_lhs => rw [← List.map_snd_zip (l₁ := X) (l₂ := Y) hl.ge]
  simp [Function.comp_def]

/-- The formulas of `linearity` in floating point. -/
theorem rlinFit_fin (hu1 : u < 1) (X Y : List ℝ) (hl : X.length = Y.length) (hy : ∀ p ∈ X.zip Y, 0 ≤ p.1 ∧ 0 < p.2)
    (h : ∃ p ∈ X.zip Y, ∃ p' ∈ X.zip Y, p.1 ≠ p'.1) (a b : ℝ) (pts : List (ℝ × ℝ)) (hpts : pts = X.zip Y)
    (h1 : a * Lin.C pts + b * Lin.B pts = Lin.A pts) (h2 : a * Lin.B pts + b * Lin.E pts = Lin.D pts) (N : ℕ)
    (hN : N = 5 + S'.depth pts.length)
    (hc : ((1 / (1 - u)) ^ (2 * N + 2) - 1) * (Lin.B pts * Lin.B pts + Lin.C pts * Lin.E pts) ≤
      (Lin.C pts * Lin.E pts - Lin.B pts * Lin.B pts) / 2) (Vb : ℝ)
    (hVb : Vb = 4 * (Lin.A pts * Lin.B pts + Lin.C pts * Lin.D pts) * (Lin.B pts * Lin.B pts + Lin.C pts * Lin.E pts) /
      (Lin.C pts * Lin.E pts - Lin.B pts * Lin.B pts) ^ 2) :
    ∃ a' b', Rounded.linFit R S' (X.map .fin) ((Y.map R.rnd).map .fin) = .ok (.fin a', .fin b') ∧
      OffBy ((1 / (1 - u)) ^ (2 * N + 3)) Vb b' b ∧
      OffBy ((1 / (1 - u)) ^ (4 * N + 6)) ((Lin.A pts + Vb * Lin.B pts) / Lin.C pts) a' a := by
  have h0 := R.u_nonneg
  have hs : 0 < 1 - u := by linarith
  have hs1 : 1 - u ≤ 1 := by linarith
  rw [← hpts] at hy h
  have hyn : ∀ p ∈ pts, p.2 ≠ 0 := fun p hp => (hy p hp).2.ne'
  have hC := Lin.C_pos hyn h
  have hD := Lin.disc_pos hyn h
  have rn : ∀ {x : ℝ}, 0 ≤ x → Close (1 - u) (R.rnd x) x := fun h => Close.rnd R hu1.le h
  have hpos : ∀ {x : ℝ}, 0 < x → 0 < R.rnd x := fun h => Close.pos (rn h.le) hs h
  have hlen : (X.map Fl.fin).length = ((Y.map R.rnd).map Fl.fin).length := by simpa using hl
  set fA : ℝ × ℝ → ℝ := fun p => R.rnd (p.1 / R.rnd p.2) with hfA
  set fB : ℝ × ℝ → ℝ := fun p => R.rnd (p.1 / R.rnd (R.rnd p.2 * R.rnd p.2)) with hfB
  set fC : ℝ × ℝ → ℝ := fun p => R.rnd (fA p * fA p) with hfC
  set fD : ℝ → ℝ := fun y => R.rnd (1 / R.rnd y) with hfD
  set fE : ℝ → ℝ := fun y => R.rnd (1 / R.rnd (R.rnd y * R.rnd y)) with hfE
  have n1 : ∀ {y : ℝ}, 0 < y → R.rnd y ≠ 0 := fun h => (hpos h).ne'
  have n2 : ∀ {y : ℝ}, 0 < y → R.rnd (R.rnd y * R.rnd y) ≠ 0 := fun h => (hpos (mul_pos (hpos h) (hpos h))).ne'
  have hyY : ∀ y ∈ Y, 0 < y := by
    intro y hy'
    rw [← List.map_snd_zip (l₁ := X) (l₂ := Y) hl.ge, List.mem_map, ← hpts] at hy'
    obtain ⟨p, hp, rfl⟩ := hy'
    exact (hy p hp).2
  have e1 : Np.bin (fun x y => Rounded.rd R (x / y)) (X.map Fl.fin) ((Y.map R.rnd).map Fl.fin) = .ok ((pts.map fA).map .fin) := by
    rw [Np.bin_eq_len _ _ _ hlen, zipWith_rnd R _ fA, hpts]
    intro p hp
    rw [← hpts] at hp
    rw [Fl.fin_div (n1 (hy p hp).2)]
    rfl
  have e2 : Np.bin (fun x y => Rounded.rd R (x / Rounded.rd R (Fl.sq y))) (X.map Fl.fin) ((Y.map R.rnd).map Fl.fin) =
      .ok ((pts.map fB).map .fin) := by
    rw [Np.bin_eq_len _ _ _ hlen, zipWith_rnd R _ fB, hpts]
    intro p hp
    rw [← hpts] at hp
    rw [Fl.sq_fin]
    show Rounded.rd R (Fl.fin p.1 / Fl.fin (R.rnd (R.rnd p.2 * R.rnd p.2))) = _
    rw [Fl.fin_div (n2 (hy p hp).2)]
    rfl
  have e3 : ((pts.map fA).map Fl.fin).map (fun z => Rounded.rd R (Fl.sq z)) = (pts.map fC).map .fin := by
    simp [Function.comp_def, Rounded.rd, hfC]
  have e4 : ((Y.map R.rnd).map Fl.fin).map (fun y => Rounded.rd R (Fl.fin 1 / y)) = (pts.map fun p => fD p.2).map .fin := by
    rw [hpts, ← map_snd fD X Y hl]
    simp only [List.map_map]
    refine List.map_congr_left fun y hy' => ?_
    show Rounded.rd R (Fl.fin 1 / Fl.fin (R.rnd y)) = _
    rw [Fl.fin_div (n1 (hyY y hy'))]
    rfl
  have e5 : ((Y.map R.rnd).map Fl.fin).map (fun y => Rounded.rd R (Fl.fin 1 / Rounded.rd R (Fl.sq y))) =
      (pts.map fun p => fE p.2).map .fin := by
    rw [hpts, ← map_snd fE X Y hl]
    simp only [List.map_map]
    refine List.map_congr_left fun y hy' => ?_
    show Rounded.rd R (Fl.fin 1 / Fl.fin (R.rnd (R.rnd y * R.rnd y))) = _
    rw [Fl.fin_div (n2 (hyY y hy'))]
    rfl
  have lift5 : ∀ {t x y : ℝ} {n : ℕ}, Close t x y → t = (1 - u) ^ n → n ≤ 5 → Close ((1 - u) ^ 5) x y := fun h e hn =>
    Close.mono h (by rw [e]; exact pow_le_pow_of_le_one hs.le hs1 hn)
  have one : ∀ {x : ℝ}, 0 ≤ x → Close 1 x x := fun h => Close.refl h le_rfl
  have cA : ∀ p ∈ pts, Close ((1 - u) * (1 * (1 - u))) (fA p) (p.1 / p.2) := fun p hp => by
    have c := Close.div (one (hy p hp).1) (rn (hy p hp).2.le) zero_le_one hs (hy p hp).2
    exact Close.trans (rn c.1) c hs.le (by positivity)
  have cS : ∀ {y : ℝ}, 0 < y → Close ((1 - u) * ((1 - u) * (1 - u))) (R.rnd (R.rnd y * R.rnd y)) (y * y) := fun h => by
    have c := Close.mul (rn h.le) (rn h.le) hs.le hs.le
    exact Close.trans (rn c.1) c hs.le (by positivity)
  have cB : ∀ p ∈ pts, Close ((1 - u) * (1 * ((1 - u) * ((1 - u) * (1 - u))))) (fB p) (p.1 / (p.2 * p.2)) := fun p hp => by
    have c := Close.div (one (hy p hp).1) (cS (hy p hp).2) zero_le_one (by positivity) (mul_pos (hy p hp).2 (hy p hp).2)
    exact Close.trans (rn c.1) c hs.le (by positivity)
  have cC : ∀ p ∈ pts, Close ((1 - u) * ((1 - u) * (1 * (1 - u)) * ((1 - u) * (1 * (1 - u))))) (fC p) (p.1 / p.2 * (p.1 / p.2)) :=
    fun p hp => by
      have c := Close.mul (cA p hp) (cA p hp) (by positivity) (by positivity)
      exact Close.trans (rn c.1) c hs.le (by positivity)
  have cD : ∀ p ∈ pts, Close ((1 - u) * (1 * (1 - u))) (fD p.2) (1 / p.2) := fun p hp => by
    have c := Close.div (one zero_le_one) (rn (hy p hp).2.le) zero_le_one hs (hy p hp).2
    exact Close.trans (rn c.1) c hs.le (by positivity)
  have cE : ∀ p ∈ pts, Close ((1 - u) * (1 * ((1 - u) * ((1 - u) * (1 - u))))) (fE p.2) (1 / (p.2 * p.2)) := fun p hp => by
    have c := Close.div (one zero_le_one) (cS (hy p hp).2) zero_le_one (by positivity) (mul_pos (hy p hp).2 (hy p hp).2)
    exact Close.trans (rn c.1) c hs.le (by positivity)
  have sA := sum_close R S' hu1 fun p hp => lift5 (n := 2) (cA p hp) (by ring) (by norm_num)
  have sB := sum_close R S' hu1 fun p hp => lift5 (n := 4) (cB p hp) (by ring) (by norm_num)
  have sC := sum_close R S' hu1 fun p hp => lift5 (n := 5) (cC p hp) (by ring) (by norm_num)
  have sD := sum_close R S' hu1 (f' := fun p => fD p.2) fun p hp => lift5 (n := 2) (cD p hp) (by ring) (by norm_num)
  have sE := sum_close R S' hu1 (f' := fun p => fE p.2) fun p hp => lift5 (n := 4) (cE p hp) (by ring) (by norm_num)
  rw [← hN] at sA sB sC sD sE
  obtain ⟨d0, c0, ob, oa⟩ := line_err (R := R) hu1 sA sB sC sD sE hC hD h1 h2 hc
  refine ⟨_, _, ?_, by rw [hVb]; exact ob, by rw [hVb]; exact oa⟩
  unfold Rounded.linFit
  rw [e1, e2, e4, e5]
  simp only [except_bind_ok]
  rw [e3]
  simp only [fsum_fin, Fl.fin_mul, Fl.fin_sub, Fl.sq_fin, Rounded.rd]
  rw [Fl.fin_div d0]
  simp only [Fl.fin_mul, Fl.fin_sub]
  rw [Fl.fin_div c0]
  rfl

end
end Emva
