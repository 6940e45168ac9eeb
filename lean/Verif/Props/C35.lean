import Verif.Props.C29_C32

/-!
C35: the linearity fit.
-/
set_option autoImplicit false
set_option linter.unusedSectionVars false
namespace Emva
open Spec Data Results Fit
variable {F : Type} [Field F] [LinearOrder F] [IsStrictOrderedRing F]

namespace Lin

/-- weighted sums -/
def A (l : List (F × F)) : F := S (fun p => p.1 / p.2) l
def B (l : List (F × F)) : F := S (fun p => p.1 / (p.2 * p.2)) l
def C (l : List (F × F)) : F := S (fun p => p.1 / p.2 * (p.1 / p.2)) l
def D (l : List (F × F)) : F := S (fun p => 1 / p.2) l
def E (l : List (F × F)) : F := S (fun p => 1 / (p.2 * p.2)) l

theorem S_add (f g : F × F → F) (l) : S (fun p => f p + g p) l = S f l + S g l := by
  induction l with
  | nil => simp
  | cons p l ih => rw [S_cons, S_cons, S_cons, ih]; ring

/-- squared relative size of a line -/
theorem S_rel (l : List (F × F)) (a b : F) :
    S (fun p => ((a * p.1 + b) / p.2) ^ 2) l = a ^ 2 * C l + 2 * a * b * B l + b ^ 2 * E l := by
  rw [C, B, E, ← S_mul, ← S_mul, ← S_mul, ← S_add, ← S_add]
  refine S_congr fun p _ => ?_
  by_cases h : p.2 = 0
  · simp [h]
  · field_simp; ring

theorem relErr_expand (l : List (F × F)) (hy : ∀ p ∈ l, p.2 ≠ 0) (a b : F) :
    relErr l a b = l.length - 2 * a * A l - 2 * b * D l + (a ^ 2 * C l + 2 * a * b * B l + b ^ 2 * E l) := by
  rw [← S_rel]
  have h1 : (l.length : F) - 2 * a * A l - 2 * b * D l
      = S (fun p => 1 - 2 * a * (p.1 / p.2) - 2 * b * (1 / p.2)) l := by
    clear hy
    induction l with
    | nil => simp [A, D]
    | cons p l ih =>
      simp only [A, D, S_cons, List.length_cons, Nat.cast_add, Nat.cast_one] at ih ⊢
      rw [← ih]; ring
  rw [h1, ← S_add]
  refine S_congr fun p hp => ?_
  have := hy p hp
  field_simp; ring

theorem relErr_normal {l : List (F × F)} (hy : ∀ p ∈ l, p.2 ≠ 0) {a b : F}
    (h1 : a * C l + b * B l = A l) (h2 : a * B l + b * E l = D l) (a' b' : F) :
    relErr l a' b' = relErr l a b + S (fun p => (((a' - a) * p.1 + (b' - b)) / p.2) ^ 2) l := by
  rw [S_rel, relErr_expand l hy, relErr_expand l hy, ← h1, ← h2]; ring

theorem best_of_normal {l : List (F × F)} (hy : ∀ p ∈ l, p.2 ≠ 0)
    (h : ∃ p ∈ l, ∃ p' ∈ l, p.1 ≠ p'.1) {a b : F}
    (h1 : a * C l + b * B l = A l) (h2 : a * B l + b * E l = D l) : BestRelLine l a b := by
  intro a' b' hne
  rw [relErr_normal hy h1 h2 a' b']
  obtain ⟨p, hp, p', hp', hx⟩ := h
  refine lt_add_of_pos_right _ (lt_of_le_of_ne (S_nonneg (fun _ => sq_nonneg _) l) fun h0 => hne ?_)
  have hz := S_eq_zero (fun _ => sq_nonneg _) h0.symm
  have e1 := pow_eq_zero_iff (two_ne_zero) |>.1 (hz p hp)
  have e2 := pow_eq_zero_iff (two_ne_zero) |>.1 (hz p' hp')
  rw [div_eq_zero_iff, or_iff_left (hy p hp)] at e1
  rw [div_eq_zero_iff, or_iff_left (hy p' hp')] at e2
  have hm : (a' - a) * (p.1 - p'.1) = 0 := by linear_combination e1 - e2
  have hm : a' - a = 0 := (mul_eq_zero.1 hm).resolve_right (sub_ne_zero.2 hx)
  have hb : b' - b = 0 := by rw [hm] at e1; linear_combination e1
  rw [sub_eq_zero.1 hm, sub_eq_zero.1 hb]

/-- some photon count is not zero, so the sum of squares is positive -/
theorem C_pos {l : List (F × F)} (hy : ∀ p ∈ l, p.2 ≠ 0) (h : ∃ p ∈ l, ∃ p' ∈ l, p.1 ≠ p'.1) :
    0 < C l := by
  obtain ⟨p, hp, p', hp', hx⟩ := h
  by_cases h0 : p.1 = 0
  · refine S_pos (fun _ => mul_self_nonneg _) hp' (mul_self_ne_zero.2 (div_ne_zero ?_ (hy p' hp')))
    rw [h0] at hx; exact hx.symm
  · exact S_pos (fun _ => mul_self_nonneg _) hp (mul_self_ne_zero.2 (div_ne_zero h0 (hy p hp)))

theorem disc_pos {l : List (F × F)} (hy : ∀ p ∈ l, p.2 ≠ 0) (h : ∃ p ∈ l, ∃ p' ∈ l, p.1 ≠ p'.1) :
    B l * B l - C l * E l < 0 := by
  have hC := C_pos hy h
  -- the value of the quadratic form at `(B, -C)`
  have key := S_rel l (B l) (-C l)
  have hpos : 0 < S (fun p => ((B l * p.1 + -C l) / p.2) ^ 2) l := by
    obtain ⟨p, hp, p', hp', hx⟩ := h
    refine lt_of_le_of_ne (S_nonneg (fun _ => sq_nonneg _) l) fun h0 => hx ?_
    have hz := S_eq_zero (fun _ => sq_nonneg _) h0.symm
    have e1 := pow_eq_zero_iff (two_ne_zero) |>.1 (hz p hp)
    have e2 := pow_eq_zero_iff (two_ne_zero) |>.1 (hz p' hp')
    rw [div_eq_zero_iff, or_iff_left (hy p hp)] at e1
    rw [div_eq_zero_iff, or_iff_left (hy p' hp')] at e2
    have hB : B l ≠ 0 := fun hB => by rw [hB] at e1; linarith
    apply mul_left_cancel₀ hB
    linear_combination e1 - e2
  rw [key] at hpos
  have : 0 < C l * (C l * E l - B l * B l) := by linear_combination hpos
  have := (mul_pos_iff_of_pos_left hC).1 this
  linarith

theorem zipWith_fin (op : Fl F → Fl F → Fl F) (f : F × F → F) (X Y : List F)
    (h : ∀ p ∈ X.zip Y, op (.fin p.1) (.fin p.2) = .fin (f p)) :
    List.zipWith op (X.map .fin) (Y.map .fin) = ((X.zip Y).map f).map .fin := by
  induction X generalizing Y with
  | nil => simp
  | cons x X ih =>
    cases Y with
    | nil => simp
    | cons y Y =>
      simp only [List.map_cons, List.zipWith_cons_cons, List.zip_cons_cons]
      rw [ih Y fun p hp => h p (List.mem_cons_of_mem _ hp), h (x, y) (List.mem_cons_self ..)]

theorem S_snd (g : F → F) (X Y : List F) (hl : X.length = Y.length) :
    (Y.map g).sum = S (fun p => g p.2) (X.zip Y) := by
  conv_lhs => rw [← List.map_snd_zip (l₁ := X) (l₂ := Y) hl.ge]
  simp [S, Function.comp_def]

/-- The formulas of `linearity` on finite data. -/
theorem linFit_fin (X Y : List F) (hl : X.length = Y.length) (hy : ∀ p ∈ X.zip Y, p.2 ≠ 0)
    (h : ∃ p ∈ X.zip Y, ∃ p' ∈ X.zip Y, p.1 ≠ p'.1) :
    ∃ a b, linFit (X.map .fin) (Y.map .fin) = .ok (.fin a, .fin b) ∧
      a * C (X.zip Y) + b * B (X.zip Y) = A (X.zip Y) ∧
      a * B (X.zip Y) + b * E (X.zip Y) = D (X.zip Y) := by
  have hyY : ∀ y ∈ Y, y ≠ 0 := by
    intro y hy'
    rw [← List.map_snd_zip (l₁ := X) (l₂ := Y) hl.ge, List.mem_map] at hy'
    obtain ⟨p, hp, rfl⟩ := hy'
    exact hy p hp
  have hC := C_pos hy h
  have hD := disc_pos hy h
  have hlen : (X.map Fl.fin).length = (Y.map Fl.fin).length := by simpa using hl
  have e1 : Np.bin (· / ·) (X.map Fl.fin) (Y.map Fl.fin)
      = .ok (((X.zip Y).map fun p => p.1 / p.2).map .fin) := by
    rw [Np.bin_eq_len _ _ _ hlen, zipWith_fin _ (fun p => p.1 / p.2)]
    exact fun p hp => Fl.fin_div (hy p hp)
  have e2 : Np.bin (fun x y : Fl F => x / Fl.sq y) (X.map Fl.fin) (Y.map Fl.fin)
      = .ok (((X.zip Y).map fun p => p.1 / (p.2 * p.2)).map .fin) := by
    rw [Np.bin_eq_len _ _ _ hlen, zipWith_fin _ (fun p => p.1 / (p.2 * p.2))]
    exact fun p hp => Fl.fin_div (mul_self_ne_zero.2 (hy p hp))
  have e3 : ((((X.zip Y).map fun p => p.1 / p.2).map Fl.fin).map Fl.sq)
      = ((X.zip Y).map fun p => p.1 / p.2 * (p.1 / p.2)).map .fin := by
    simp [Function.comp_def]
  have e4 : (Y.map Fl.fin).map (fun y => Fl.fin 1 / y) = (Y.map fun y => 1 / y).map .fin := by
    simp only [List.map_map]
    exact List.map_congr_left fun y hy' => Fl.fin_div (hyY y hy')
  have e5 : (Y.map Fl.fin).map (fun y => Fl.fin 1 / Fl.sq y) = (Y.map fun y => 1 / (y * y)).map .fin := by
    simp only [List.map_map]
    exact List.map_congr_left fun y hy' => Fl.fin_div (mul_self_ne_zero.2 (hyY y hy'))
  have d1 : ((X.zip Y).map fun p => p.1 / p.2).sum = A (X.zip Y) := rfl
  have d2 : ((X.zip Y).map fun p => p.1 / (p.2 * p.2)).sum = B (X.zip Y) := rfl
  have d3 : ((X.zip Y).map fun p => p.1 / p.2 * (p.1 / p.2)).sum = C (X.zip Y) := rfl
  have d4 : (Y.map fun y => 1 / y).sum = D (X.zip Y) := S_snd (fun y => 1 / y) X Y hl
  have d5 : (Y.map fun y => 1 / (y * y)).sum = E (X.zip Y) := S_snd (fun y => 1 / (y * y)) X Y hl
  unfold linFit
  rw [e1, e2, e4, e5]
  simp only [except_bind_ok]
  rw [e3]
  simp only [Fl.sum_fin, d1, d2, d3, d4, d5, Fl.fin_mul, Fl.fin_sub, Fl.sq_fin]
  rw [Fl.fin_div hD.ne]
  simp only [Fl.fin_mul, Fl.fin_sub]
  rw [Fl.fin_div hC.ne']
  generalize A (X.zip Y) = A at *
  generalize B (X.zip Y) = B at *
  generalize C (X.zip Y) = C at *
  generalize D (X.zip Y) = D at *
  generalize E (X.zip Y) = E at *
  obtain ⟨Δ, hΔ⟩ : ∃ Δ, Δ = B * B - C * E := ⟨_, rfl⟩
  rw [← hΔ] at hD ⊢
  refine ⟨_, _, rfl, ?_, ?_⟩
  · have := hC.ne'; field_simp; ring
  · have hC' := hC.ne'
    have hD' := hD.ne
    field_simp
    rw [hΔ]; ring

theorem fmin_fin (a b : F) : Np.fmin (.fin a) (.fin b) = .fin (min a b) := by
  unfold Np.fmin
  by_cases h : a ≤ b <;> simp [Fl.isNan, h, le_of_not_ge]

theorem fmax_fin (a b : F) : Np.fmax (.fin a) (.fin b) = .fin (max a b) := by
  unfold Np.fmax
  by_cases h : a ≤ b <;> simp [Fl.isNan, h, le_of_not_ge]

theorem foldl_fmin (l : List F) (x : F) :
    ∃ m, (l.map Fl.fin).foldl Np.fmin (.fin x) = .fin m ∧ m ∈ x :: l ∧ ∀ y ∈ x :: l, m ≤ y := by
  induction l generalizing x with
  | nil => exact ⟨x, rfl, by simp, by simp⟩
  | cons a l ih =>
    simp only [List.map_cons, List.foldl_cons, fmin_fin]
    obtain ⟨m, h1, h2, h3⟩ := ih (min x a)
    refine ⟨m, h1, ?_, ?_⟩
    · rcases List.mem_cons.1 h2 with h | h
      · rcases min_choice x a with e | e <;> rw [e] at h <;> rw [h] <;> simp
      · exact List.mem_cons_of_mem _ (List.mem_cons_of_mem _ h)
    · intro y hy
      have h0 := h3 (min x a) (List.mem_cons_self ..)
      rcases List.mem_cons.1 hy with rfl | hy
      · exact h0.trans (min_le_left _ _)
      · rcases List.mem_cons.1 hy with rfl | hy
        · exact h0.trans (min_le_right _ _)
        · exact h3 y (List.mem_cons_of_mem _ hy)

theorem foldl_fmax (l : List F) (x : F) :
    ∃ m, (l.map Fl.fin).foldl Np.fmax (.fin x) = .fin m ∧ m ∈ x :: l ∧ ∀ y ∈ x :: l, y ≤ m := by
  induction l generalizing x with
  | nil => exact ⟨x, rfl, by simp, by simp⟩
  | cons a l ih =>
    simp only [List.map_cons, List.foldl_cons, fmax_fin]
    obtain ⟨m, h1, h2, h3⟩ := ih (max x a)
    refine ⟨m, h1, ?_, ?_⟩
    · rcases List.mem_cons.1 h2 with h | h
      · rcases max_choice x a with e | e <;> rw [e] at h <;> rw [h] <;> simp
      · exact List.mem_cons_of_mem _ (List.mem_cons_of_mem _ h)
    · intro y hy
      have h0 := h3 (max x a) (List.mem_cons_self ..)
      rcases List.mem_cons.1 hy with rfl | hy
      · exact (le_max_left _ _).trans h0
      · rcases List.mem_cons.1 hy with rfl | hy
        · exact (le_max_right _ _).trans h0
        · exact h3 y (List.mem_cons_of_mem _ hy)

theorem amin_fin {l : List F} (h : l ≠ []) :
    ∃ m, Np.amin (l.map Fl.fin) = .ok (.fin m) ∧ m ∈ l ∧ ∀ y ∈ l, m ≤ y := by
  obtain ⟨x, t, rfl⟩ := List.exists_cons_of_ne_nil h
  obtain ⟨m, h1, h2, h3⟩ := foldl_fmin t x
  exact ⟨m, by simp only [Np.amin, List.map_cons]; rw [h1], h2, h3⟩

theorem amax_fin {l : List F} (h : l ≠ []) :
    ∃ m, Np.amax (l.map Fl.fin) = .ok (.fin m) ∧ m ∈ l ∧ ∀ y ∈ l, y ≤ m := by
  obtain ⟨x, t, rfl⟩ := List.exists_cons_of_ne_nil h
  obtain ⟨m, h1, h2, h3⟩ := foldl_fmax t x
  exact ⟨m, by simp only [Np.amax, List.map_cons]; rw [h1], h2, h3⟩

end Lin

/-- deviation of a point from the line, in per cent of the line -/
def Spec.deviation (a b : F) (p : F × F) : F := 100 * (p.2 - (a * p.1 + b)) / (a * p.1 + b)

/-- the model's deviation of a point -/
def flDev (a b : F) (y x : Fl F) : Fl F :=
  .fin 100 * (y - (.fin a * x + .fin b)) / (.fin a * x + .fin b)

theorem val_linearity (r : Res F) (uy ud : List F) (hu : r.temporal.u_y = uy.map .fin)
    (hd : r.temporal.u_ydark = ud.map .fin) (h1 : uy.length = ud.length)
    (h2 : r.temporal.u_p.length = uy.length) (i j : ℕ) (hi : val indexLinearityMin r = .ok i)
    (hj : val indexLinearityMax r = .ok j) (a b : F)
    (hfit : linFit ((Np.slice r.temporal.u_p i (j + 1)).map .fin)
      ((Np.slice (diff uy ud) i (j + 1)).map .fin) = .ok (.fin a, .fin b))
    (dev : List (Fl F))
    (hdev : dev = List.zipWith (flDev a b) ((diff uy ud).map .fin) (r.temporal.u_p.map .fin)) :
    val linearity r = (do
      let lo ← Np.amin (Np.slice dev i (j + 1))
      let hi ← Np.amax (Np.slice dev i (j + 1))
      pure ⟨.fin a, .fin b, dev, lo, hi⟩) := by
  have sMin := stable_linMin (F := F)
  have sMax := stable_linMax (F := F)
  have hsig : val signal r = .ok ((diff uy ud).map .fin) := signal_fin r uy ud hu hd h1
  have hbin : Np.bin (flDev a b) ((diff uy ud).map .fin) (r.temporal.u_p.map .fin) = .ok dev := by
    rw [Np.bin_eq_len _ _ _ (by simp [diff_length _ _ h1, h2]), hdev]
  unfold linearity
  rw [val_bind_ok stable_signal (by stab) hsig, val_bind_ok stable_photons (by stab) rfl,
    val_bind_ok sMax (by stab) hj, val_bind_ok sMin (by stab) hi]
  rw [← Np.slice_map, ← Np.slice_map] at hfit
  rw [val_bind (Stable.lift _) (by stab), val_lift]
  have hfit' : linFit (Np.slice ((fun r : Res F => List.map Fl.fin r.temporal.u_p) r) i (j + 1))
      (Np.slice (List.map Fl.fin (diff uy ud)) i (j + 1)) = .ok (.fin a, .fin b) := hfit
  rw [hfit', except_bind_ok]
  have hbin' : Np.bin (fun y x : Fl F => Fl.fin 100 * (y - (.fin a * x + .fin b)) / (.fin a * x + .fin b))
      (List.map Fl.fin (diff uy ud)) ((fun r : Res F => List.map Fl.fin r.temporal.u_p) r) = .ok dev :=
    hbin
  simp only
  rw [val_bind (Stable.lift _) (by stab), val_lift, hbin', except_bind_ok,
    val_bind (Stable.lift _) (by stab), val_lift]
  refine congrArg _ (funext fun lo => ?_)
  rw [val_bind (Stable.lift _) (by stab), val_lift]
  rfl

theorem slice_zip (X Y : List F) (i j : ℕ) :
    Np.slice (X.zip Y) i j = (Np.slice X i j).zip (Np.slice Y i j) := by
  simp only [Np.slice, List.zip, List.take_zipWith, List.drop_zipWith]

/-- C35: if the range `index_linearity_min .. index_linearity_max` holds two different photon counts and
no zero signal, `linearity` returns the only line of least squared relative error over the range,
the deviations (in per cent of the line) of all points where the line is not zero and, if the line is
not zero on the range, the smallest and largest deviation over the range. -/
theorem C35_best_relative_line (r : Res F) (uy ud : List F) (hu : r.temporal.u_y = uy.map .fin)
    (hd : r.temporal.u_ydark = ud.map .fin) (h1 : uy.length = ud.length)
    (h2 : r.temporal.u_p.length = uy.length) (i j : ℕ) (hi : val indexLinearityMin r = .ok i)
    (hj : val indexLinearityMax r = .ok j) (pts : List (F × F))
    (hpts : pts = ((r.temporal.u_p.zip (diff uy ud)).take (j + 1)).drop i)
    (hy : ∀ p ∈ pts, p.2 ≠ 0) (hx : ∃ p ∈ pts, ∃ p' ∈ pts, p.1 ≠ p'.1) :
    ∃ a b, BestRelLine pts a b ∧ a * Lin.C pts + b * Lin.B pts = Lin.A pts ∧
      a * Lin.B pts + b * Lin.E pts = Lin.D pts ∧
      ((∀ p ∈ pts, a * p.1 + b ≠ 0) → ∃ l lo hi, val linearity r = .ok l ∧
      l.fit_slope = .fin a ∧ l.fit_offset = .fin b ∧
      l.linearity_error_min = .fin lo ∧ l.linearity_error_max = .fin hi ∧
      (∀ (n : ℕ) (p : F × F), (r.temporal.u_p.zip (diff uy ud))[n]? = some p → a * p.1 + b ≠ 0 →
        l.relative_deviation[n]? = some (Fl.fin (deviation a b p))) ∧
      (∃ p ∈ pts, lo = deviation a b p) ∧ (∀ p ∈ pts, lo ≤ deviation a b p) ∧
      (∃ p ∈ pts, hi = deviation a b p) ∧ (∀ p ∈ pts, deviation a b p ≤ hi)) := by
  have hsl : pts = (Np.slice r.temporal.u_p i (j + 1)).zip (Np.slice (diff uy ud) i (j + 1)) := by
    rw [← slice_zip, hpts]; rfl
  have hlen : (Np.slice r.temporal.u_p i (j + 1)).length = (Np.slice (diff uy ud) i (j + 1)).length := by
    simp [Np.slice, diff_length _ _ h1, h2]
  rw [hsl] at hy hx
  obtain ⟨a, b, hfit, n1, n2⟩ := Lin.linFit_fin _ _ hlen hy hx
  rw [← hsl] at hy hx n1 n2
  refine ⟨a, b, Lin.best_of_normal hy hx n1 n2, n1, n2, fun hf => ?_⟩
  have hv := val_linearity r uy ud hu hd h1 h2 i j hi hj a b hfit _ rfl
  have hdevat : ∀ p : F × F, a * p.1 + b ≠ 0 →
      flDev a b (.fin p.2) (.fin p.1) = .fin (deviation a b p) := by
    intro p hp
    simp only [flDev, Fl.fin_mul, Fl.fin_add, Fl.fin_sub, Fl.fin_div hp, deviation]
  have hslice : Np.slice (List.zipWith (flDev a b) ((diff uy ud).map .fin)
      (r.temporal.u_p.map .fin)) i (j + 1) = (pts.map (deviation a b)).map .fin := by
    have : Np.slice (List.zipWith (flDev a b) ((diff uy ud).map .fin) (r.temporal.u_p.map .fin)) i (j + 1)
        = List.zipWith (fun x y => flDev a b y x) ((Np.slice r.temporal.u_p i (j + 1)).map .fin)
          ((Np.slice (diff uy ud) i (j + 1)).map .fin) := by
      rw [List.zipWith_comm]
      simp only [Np.slice, List.take_zipWith, List.drop_zipWith, List.map_take, List.map_drop]
    rw [this, Lin.zipWith_fin _ (deviation a b), ← hsl]
    intro p hp
    rw [← hsl] at hp
    exact hdevat p (hf p hp)
  have hne : pts.map (deviation a b) ≠ [] := by
    obtain ⟨p, hp, -⟩ := hx
    intro h
    rw [List.map_eq_nil_iff] at h
    rw [h] at hp; exact List.not_mem_nil hp
  obtain ⟨lo, l1, l2, l3⟩ := Lin.amin_fin hne
  obtain ⟨hi', m1, m2, m3⟩ := Lin.amax_fin hne
  rw [hslice, l1, m1] at hv
  refine ⟨_, lo, hi', hv, rfl, rfl, rfl, rfl, ?_, ?_, ?_, ?_, ?_⟩
  · intro n p hn hp
    rw [List.getElem?_zip_eq_some] at hn
    simp only
    rw [List.getElem?_zipWith, List.getElem?_map, List.getElem?_map, hn.1, hn.2]
    simp only [Option.map_some]
    rw [hdevat p hp]
  · obtain ⟨p, hp, e⟩ := List.mem_map.1 l2
    exact ⟨p, hp, e.symm⟩
  · exact fun p hp => l3 _ (List.mem_map_of_mem hp)
  · obtain ⟨p, hp, e⟩ := List.mem_map.1 m2
    exact ⟨p, hp, e.symm⟩
  · exact fun p hp => m3 _ (List.mem_map_of_mem hp)

theorem relErr_exact {l : List (F × F)} {a b : F} (h : ∀ p ∈ l, p.2 = a * p.1 + b) :
    relErr l a b = 0 := by
  have : relErr l a b = S (fun _ => 0) l := S_congr fun p hp => by rw [h p hp]; simp
  rw [this]; simp [S]

theorem relErr_nonneg (l : List (F × F)) (a b : F) : 0 ≤ relErr l a b :=
  S_nonneg (f := fun p => ((p.2 - (a * p.1 + b)) / p.2) ^ 2) (fun _ => sq_nonneg _) l

/-- C35: a signal exactly on a line over the range gives this line and linearity errors 0. -/
theorem C35_exact (r : Res F) (uy ud : List F) (hu : r.temporal.u_y = uy.map .fin)
    (hd : r.temporal.u_ydark = ud.map .fin) (h1 : uy.length = ud.length)
    (h2 : r.temporal.u_p.length = uy.length) (i j : ℕ) (hi : val indexLinearityMin r = .ok i)
    (hj : val indexLinearityMax r = .ok j) (pts : List (F × F))
    (hpts : pts = ((r.temporal.u_p.zip (diff uy ud)).take (j + 1)).drop i)
    (hy : ∀ p ∈ pts, p.2 ≠ 0) (hx : ∃ p ∈ pts, ∃ p' ∈ pts, p.1 ≠ p'.1) (m c : F)
    (hline : ∀ p ∈ pts, p.2 = m * p.1 + c) :
    ∃ l, val linearity r = .ok l ∧ l.fit_slope = .fin m ∧ l.fit_offset = .fin c ∧
      val LEMin r = .ok (.fin 0) ∧ val LEMax r = .ok (.fin 0) := by
  obtain ⟨a, b, hbest, -, -, hrest⟩ :=
    C35_best_relative_line r uy ud hu hd h1 h2 i j hi hj pts hpts hy hx
  have hab : (m, c) = (a, b) := by
    by_contra hne
    have := hbest m c hne
    rw [relErr_exact hline] at this
    exact absurd (relErr_nonneg _ _ _) (not_le.2 this)
  cases hab
  obtain ⟨l, lo, hi', hl, e1, e2, e3, e4, -, ⟨p, hp, hlo⟩, -, ⟨p', hp', hhi⟩, -⟩ :=
    hrest fun p hp => by rw [← hline p hp]; exact hy p hp
  have dz : ∀ p ∈ pts, deviation m c p = 0 := fun p hp => by
    rw [deviation, ← hline p hp, sub_self, mul_zero, zero_div]
  rw [dz p hp] at hlo
  rw [dz p' hp'] at hhi
  refine ⟨l, hl, e1, e2, ?_, ?_⟩
  · unfold LEMin
    rw [val_bind_ok stable_linearity (by stab) hl, val_pure, e3, hlo]
  · unfold LEMax
    rw [val_bind_ok stable_linearity (by stab) hl, val_pure, e4, hhi]

/-- C35: if the fitted line is positive over the range then `LE_min <= 0 <= LE_max`. -/
theorem C35_error_signs (r : Res F) (uy ud : List F) (hu : r.temporal.u_y = uy.map .fin)
    (hd : r.temporal.u_ydark = ud.map .fin) (h1 : uy.length = ud.length)
    (h2 : r.temporal.u_p.length = uy.length) (i j : ℕ) (hi : val indexLinearityMin r = .ok i)
    (hj : val indexLinearityMax r = .ok j) (pts : List (F × F))
    (hpts : pts = ((r.temporal.u_p.zip (diff uy ud)).take (j + 1)).drop i)
    (hy : ∀ p ∈ pts, p.2 ≠ 0) (hx : ∃ p ∈ pts, ∃ p' ∈ pts, p.1 ≠ p'.1) :
    ∃ a b, BestRelLine pts a b ∧ ((∀ p ∈ pts, 0 < a * p.1 + b) → ∃ lo hi,
      val LEMin r = .ok (.fin lo) ∧ val LEMax r = .ok (.fin hi) ∧ lo ≤ 0 ∧ 0 ≤ hi) := by
  obtain ⟨a, b, hbest, n1, n2, hrest⟩ :=
    C35_best_relative_line r uy ud hu hd h1 h2 i j hi hj pts hpts hy hx
  refine ⟨a, b, hbest, fun hpos => ?_⟩
  obtain ⟨l, lo, hi', hl, -, -, e3, e4, -, ⟨p, hp, hlo⟩, hlo', ⟨p', hp', hhi⟩, hhi'⟩ :=
    hrest fun p hp => (hpos p hp).ne'
  refine ⟨lo, hi', ?_, ?_, ?_, ?_⟩
  · unfold LEMin
    rw [val_bind_ok stable_linearity (by stab) hl, val_pure, e3]
  · unfold LEMax
    rw [val_bind_ok stable_linearity (by stab) hl, val_pure, e4]
  all_goals
    -- the residual is orthogonal to the fitted line
    have horth : S (fun p => (a * p.1 + b) / p.2 * (1 - (a * p.1 + b) / p.2)) pts = 0 := by
      have e : S (fun p => (a * p.1 + b) / p.2 * (1 - (a * p.1 + b) / p.2)) pts
          = a * Lin.A pts + b * Lin.D pts
            + -1 * (a ^ 2 * Lin.C pts + 2 * a * b * Lin.B pts + b ^ 2 * Lin.E pts) := by
        rw [← Lin.S_rel, Lin.A, Lin.D, ← S_mul, ← S_mul, ← S_mul, ← Lin.S_add, ← Lin.S_add]
        exact S_congr fun p hp => by have := hy p hp; field_simp; ring
      rw [e, ← n1, ← n2]; ring
  · by_contra hc
    have hlt : ∀ p ∈ pts, 0 < (a * p.1 + b) / p.2 * (1 - (a * p.1 + b) / p.2) := by
      intro p hp
      have hd : 0 < deviation a b p := lt_of_lt_of_le (not_le.1 hc) (hlo' p hp)
      have hf := hpos p hp
      have hyf : a * p.1 + b < p.2 := by
        rw [deviation, lt_div_iff₀ hf, zero_mul] at hd
        linarith
      have hy0 : 0 < p.2 := hf.trans hyf
      have : (a * p.1 + b) / p.2 < 1 := (div_lt_one hy0).2 hyf
      exact mul_pos (div_pos hf hy0) (by linarith)
    have : ∀ l : List (F × F), (∀ p ∈ l, p ∈ pts) → l ≠ [] →
        0 < S (fun p => (a * p.1 + b) / p.2 * (1 - (a * p.1 + b) / p.2)) l := by
      intro l
      induction l with
      | nil => intro _ h; exact absurd rfl h
      | cons x l ih =>
        intro hs _
        rw [S_cons]
        have h0 := hlt x (hs x (List.mem_cons_self ..))
        by_cases hl : l = []
        · rw [hl, S_nil, add_zero]; exact h0
        · exact add_pos h0 (ih (fun p hp => hs p (List.mem_cons_of_mem _ hp)) hl)
    exact absurd horth (this pts (fun _ h => h) (List.ne_nil_of_mem hp)).ne'
  · by_contra hc
    have hlt : ∀ p ∈ pts, (a * p.1 + b) / p.2 * (1 - (a * p.1 + b) / p.2) < 0 := by
      intro p hp
      have hd : deviation a b p < 0 := lt_of_le_of_lt (hhi' p hp) (not_le.1 hc)
      have hf := hpos p hp
      have hyf : p.2 < a * p.1 + b := by
        rw [deviation, div_lt_iff₀ hf, zero_mul] at hd
        linarith
      rcases lt_or_gt_of_ne (hy p hp) with h0 | h0
      · have : (a * p.1 + b) / p.2 < 0 := div_neg_of_pos_of_neg hf h0
        exact mul_neg_of_neg_of_pos this (by linarith)
      · have : 1 < (a * p.1 + b) / p.2 := (one_lt_div h0).2 hyf
        exact mul_neg_of_pos_of_neg (by linarith) (by linarith)
    have : ∀ l : List (F × F), (∀ p ∈ l, p ∈ pts) → l ≠ [] →
        S (fun p => (a * p.1 + b) / p.2 * (1 - (a * p.1 + b) / p.2)) l < 0 := by
      intro l
      induction l with
      | nil => intro _ h; exact absurd rfl h
      | cons x l ih =>
        intro hs _
        rw [S_cons]
        have h0 := hlt x (hs x (List.mem_cons_self ..))
        by_cases hl : l = []
        · rw [hl, S_nil, add_zero]; exact h0
        · exact add_neg h0 (ih (fun p hp => hs p (List.mem_cons_of_mem _ hp)) hl)
    exact absurd horth (this pts (fun _ h => h) (List.ne_nil_of_mem hp)).ne

/-! ### a case meeting the hypotheses -/

example : val indexLinearityMin sampleRes = .ok 1 ∧ val indexLinearityMax sampleRes = .ok 3 ∧
    val LEMin sampleRes = .ok (.fin 0) ∧ val LEMax sampleRes = .ok (.fin 0) := by decide +kernel

/-- signal 0, 20, 41, 60, 80: not linear -/
def sampleBent : Res ℚ := { sampleRes with
  temporal := { sampleRes.temporal with u_y := [10, 30, 51, 70, 90, 95].map .fin } }

example : (val LEMin sampleBent).toOption.map (fun x => Fl.lt x (.fin 0)) = some true ∧
    (val LEMax sampleBent).toOption.map (fun x => Fl.lt (.fin 0) x) = some true := by decide +kernel

end Emva
