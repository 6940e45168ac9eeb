import Verif.Lemmas.Ieee
import Verif.Model.IeeeData
import Verif.Props.C83
import Verif.Props.C84

/-!
C105: the data of an evaluation neither overflow nor underflow.

In float64 with its limits (infinities, gradual underflow) the temporal and the spatial data of any int64 images are those of the
arithmetic without limits, so that the accuracy of C83 and C84 is that of the real numbers of the computer.
-/
set_option autoImplicit false
namespace Emva
open Rounding Finset

theorem i64_abs (x : ℤ) : |((i64 x : ℤ) : ℝ)| ≤ 2 ^ (63 : ℤ) := by
  have h1 : -2 ^ 63 ≤ i64 x := by have := Int.le_bmod (x := x) (m := 2 ^ 64) (by norm_num); unfold i64; omega
  have h2 : i64 x < 2 ^ 63 := by have := Int.bmod_lt (x := x) (m := 2 ^ 64) (by norm_num); unfold i64; omega
  have : |i64 x| ≤ 2 ^ 63 := abs_le.2 ⟨h1, h2.le⟩
  rw [← Int.cast_abs]
  have h3 : ((|i64 x| : ℤ) : ℝ) ≤ ((2 ^ 63 : ℤ) : ℝ) := by exact_mod_cast this
  refine h3.trans (le_of_eq ?_)
  norm_num

theorem rep_int {n : ℤ} (h : |(n : ℝ)| ≤ 2 ^ (63 : ℤ)) : Rep 0 64 (f64 n) (b64 n) :=
  (Rep.ofTame (Tame.int n h) (by norm_num) (by norm_num)).weaken le_rfl (by norm_num)

theorem forall₂_rep {α : Type*} {k m : ℤ} (P : List α) (f : α → Fl ℝ) (g : α → ℝ) (h : ∀ x ∈ P, Rep k m (f x) (g x)) :
    List.Forall₂ (Rep k m) (P.map f) (P.map g) := by
  induction P with
  | nil => exact .nil
  | cons a P ih => exact .cons (h a (by simp)) (ih fun x hx => h x (List.mem_cons_of_mem _ hx))

theorem forall₂_map_rep {k m k' m' : ℤ} {L : List (Fl ℝ)} {l : List ℝ} (h : List.Forall₂ (Rep k m) L l) (f : Fl ℝ → Fl ℝ) (g : ℝ → ℝ)
    (H : ∀ X x, Rep k m X x → Rep k' m' (f X) (g x)) : List.Forall₂ (Rep k' m') (L.map f) (l.map g) := by
  induction h with
  | nil => exact .nil
  | cons h _ ih => exact .cons (H _ _ h) ih

theorem pixelsOf_length {α : Type*} (h w : ℕ) (f : ℕ → ℕ → α) : (Rounded.pixelsOf h w f).length = h * w := by
  simp [Rounded.pixelsOf, List.length_flatMap]

theorem pixelsOf_forall₂ {k m : ℤ} (h w : ℕ) (f : ℕ → ℕ → Fl ℝ) (g : ℕ → ℕ → ℝ) (H : ∀ i < h, ∀ j < w, Rep k m (f i j) (g i j)) :
    List.Forall₂ (Rep k m) (Rounded.pixelsOf h w f) (Rounded.pixelsOf h w g) := by
  have e : ∀ {α : Type} (f : ℕ → ℕ → α), Rounded.pixelsOf h w f = (Rounded.pixelsOf h w fun i j => (i, j)).map fun p => f p.1 p.2 := by
    intro α f
    rw [pixelsOf_map]
  rw [e f, e g]
  refine forall₂_rep _ _ _ fun p hp => ?_
  simp only [Rounded.pixelsOf, List.mem_flatMap, List.mem_range, List.mem_map] at hp
  obtain ⟨i, hi, j, hj, rfl⟩ := hp
  exact H i hi j hj

theorem nat_zpow {n : ℕ} (h : n ≤ 2 ^ 53) : (n : ℝ) ≤ 2 ^ (53 : ℤ) := by
  have : (n : ℝ) ≤ 2 ^ 53 := by exact_mod_cast h
  exact_mod_cast this

theorem b64_nat {n : ℕ} (h : n ≤ 2 ^ 53) : b64 (n : ℝ) = n := binary64.nat n h

variable (T : ISum)

theorem mean_rep (a : Img) (h0 : 0 < a.size) (hs : a.size ≤ 2 ^ 53) (hd : T.depth a.size ≤ 2 ^ 52)
    (hpx : ∀ r c, |(a.px r c : ℝ)| ≤ 2 ^ (63 : ℤ)) : Rep 105 120 (Ieee.mean T a) (Rounded.mean binary64 T.free a) := by
  have hl : ((Rounded.pixelsOf a.h a.w a.px).map fun n : ℤ => b64 n).length = a.size := by
    rw [List.length_map, pixelsOf_length]; rfl
  have h1 := T.rep 53 (k := 0) (m := 64) (forall₂_rep (Rounded.pixelsOf a.h a.w a.px) (fun n : ℤ => f64 n) (fun n : ℤ => b64 n) fun x hx => by
    simp only [Rounded.pixelsOf, List.mem_flatMap, List.mem_range, List.mem_map] at hx
    obtain ⟨i, -, j, -, rfl⟩ := hx
    exact rep_int (hpx i j)) (by norm_num) (by norm_num) (by rw [hl]; exact hd) (by rw [hl]; exact nat_zpow hs)
  exact (h1.divNat a.size h0 hs (f64_nat _ hs) (b64_nat hs) (by norm_num) (by norm_num)).weaken (by norm_num) (by norm_num)

theorem nat_mul_rep (c n : ℕ) (hn : c * n ≤ 2 ^ 53) (hc : 0 < c) :
    rounded (.fin c * f64 n) = .fin ((c * n : ℕ) : ℝ) ∧ b64 (c * b64 n) = ((c * n : ℕ) : ℝ) := by
  have h1 : n ≤ 2 ^ 53 := le_trans (Nat.le_mul_of_pos_left n hc) hn
  rw [f64_nat n h1, b64_nat h1, Fl.fin_mul, ← Nat.cast_mul]
  exact ⟨f64_nat _ hn, b64_nat hn⟩

/-- the mean and the variance of two images, on a grid -/
theorem seriesPoint_rep (a b : Img) (pixels : ℕ) (a0 : 0 < a.size) (b0 : 0 < b.size) (ha : a.size ≤ 2 ^ 53) (hb : b.size ≤ 2 ^ 53)
    (da : T.depth a.size ≤ 2 ^ 52) (db : T.depth b.size ≤ 2 ^ 52) (p0 : 0 < pixels) (hp : pixels ≤ 2 ^ 51) :
    let p := Rounded.seriesPoint binary64 pixels (Rounded.entry binary64 T.free [a, b])
    Rep 105 65 (Ieee.seriesPoint pixels (Ieee.entry T [a, b])).1 p.1 ∧ Rep 315 252 (Ieee.seriesPoint pixels (Ieee.entry T [a, b])).2 p.2 := by
  intro p
  let a' : Img := { a with px := fun r c => i64 (a.px r c) }
  let b' : Img := { b with px := fun r c => i64 (b.px r c) }
  have ma : Rep 105 120 (Ieee.mean T a') (Rounded.mean binary64 T.free a') := mean_rep T a' a0 ha da fun r c => i64_abs _
  have mb : Rep 105 120 (Ieee.mean T b') (Rounded.mean binary64 T.free b') := mean_rep T b' b0 hb db fun r c => i64_abs _
  have z : Rep 105 122 (.fin 0) 0 := ⟨rfl, ⟨0, by simp⟩, by rw [abs_zero]; exact (two_pos_zpow _).le⟩
  have d1 := mb.sub ma (by norm_num) (by norm_num)
  have d : Rep 105 124 (Ieee.entry T [a, b]).dmean (Rounded.entry binary64 T.free [a, b]).dmean :=
    (z.add d1 (by norm_num) (by norm_num)).weaken le_rfl (by norm_num)
  have q := d.mul d (by norm_num) (by norm_num)
  have q2 := q.divNat 2 (by norm_num) (by norm_num) (y := 2) rfl (by norm_num) (by norm_num) (by norm_num)
  have s : Rep 0 64 (f64 (Ieee.entry T [a, b]).sum) (b64 (Rounded.entry binary64 T.free [a, b]).sum) := rep_int (i64_abs _)
  have v : Rep 0 64 (f64 (Ieee.entry T [a, b]).pvar) (b64 (Rounded.entry binary64 T.free [a, b]).pvar) := rep_int (i64_abs _)
  have n2 := nat_mul_rep 2 pixels (by omega) (by norm_num)
  have n4 := nat_mul_rep 4 pixels (by omega) (by norm_num)
  have r1 := s.divNat (2 * pixels) (by omega) (by omega) n2.1 n2.2 (by norm_num) (by norm_num)
  have r2 := v.divNat (4 * pixels) (by omega) (by omega) n4.1 n4.2 (by norm_num) (by norm_num)
  have r3 := (r2.weaken (k' := 315) (m' := 250) (by norm_num) (by norm_num)).sub (q2.weaken (by norm_num) (by norm_num))
    (by norm_num) (by norm_num)
  exact ⟨r1, r3⟩

/-- C105, temporal data: for any two images of at least one pixel the mean and the variance in float64 are finite and those of the
arithmetic without limits. -/
theorem C105_temporal (a b : Img) (pixels : ℕ) (a0 : 0 < a.size) (b0 : 0 < b.size) (ha : a.size ≤ 2 ^ 53) (hb : b.size ≤ 2 ^ 53)
    (da : T.depth a.size ≤ 2 ^ 52) (db : T.depth b.size ≤ 2 ^ 52) (p0 : 0 < pixels) (hp : pixels ≤ 2 ^ 51) :
    let p := Rounded.seriesPoint binary64 pixels (Rounded.entry binary64 T.free [a, b])
    Ieee.seriesPoint pixels (Ieee.entry T [a, b]) = (.fin p.1, .fin p.2) := by
  intro p
  obtain ⟨h1, h2⟩ := seriesPoint_rep T a b pixels a0 b0 ha hb da db p0 hp
  exact Prod.ext h1.eq h2.eq

/-- the accuracy of C83 for the numbers of the computer -/
theorem C105_temporal_accuracy (h w : ℕ) (B : ℤ) (a b : Img) (ok : PairOK h w B a b)
    (hn : (h : ℤ) * w ≤ 2 ^ 51) (hB : (h : ℤ) * w * B ≤ 2 ^ 52) (hd : T.depth (h * w) ≤ 2 ^ 52) :
    let u : ℝ := 2 ^ (-53 : ℤ)
    let ma := Spec.imgMean h w fun i j => (a.px i j : ℝ)
    let mb := Spec.imgMean h w fun i j => (b.px i j : ℝ)
    let V := Spec.halfMeanSq h w fun i j => (b.px i j : ℝ) - a.px i j
    let D := mb - ma
    ∃ m v : ℝ, Ieee.seriesPoint (h * w) (Ieee.entry T [a, b]) = (.fin m, .fin v) ∧ m = b64 ((ma + mb) / 2) ∧
      |v - Spec.imgPopVar h w (fun i j => (b.px i j : ℝ) - a.px i j) / 2|
        ≤ 4 * u * V + 6 * u * (D ^ 2 / 2) + 2 * u * ((ma + mb) * |D|) + 2 * u ^ 2 * (ma + mb) ^ 2 := by
  intro u ma mb V D
  obtain ⟨h1, h2⟩ := C83_temporal binary64 T.free (by norm_num) h w B a b ok hn hB
  have hsa : a.size = h * w := by rw [Img.size, ok.ah, ok.aw]
  have hsb : b.size = h * w := by rw [Img.size, ok.bh, ok.bw]
  have hn' : h * w ≤ 2 ^ 51 := by exact_mod_cast hn
  refine ⟨_, _, C105_temporal T a b (h * w) ?_ ?_ ?_ ?_ ?_ ?_ ok.pos hn', h1, h2⟩
  all_goals first
    | rw [hsa]
    | rw [hsb]
  · exact ok.pos
  · exact ok.pos
  · omega
  · omega
  · exact hd
  · exact hd

theorem meanF_rep {L : List (Fl ℝ)} {l : List ℝ} (h : List.Forall₂ (Rep 105 65) L l) (h0 : 0 < l.length) (hn : l.length ≤ 2 ^ 53)
    (hd : T.depth l.length ≤ 2 ^ 52) : Rep 210 121 (Ieee.meanF T L) (Rounded.meanF binary64 T.free l) := by
  have e : L.length = l.length := h.length_eq
  have h1 := T.rep 53 h (by norm_num) (by norm_num) hd (nat_zpow hn)
  have := h1.divNat l.length h0 hn (Y := f64 L.length) (y := b64 l.length) (by rw [e]; exact f64_nat _ hn) (b64_nat hn) (by norm_num)
    (by norm_num)
  exact this.weaken (by norm_num) (by norm_num)

theorem sqDev_rep {m x : ℝ} {M X : Fl ℝ} (hm : Rep 210 121 M m) (hx : Rep 210 121 X x) :
    Rep 420 247 (Ieee.sqDev M X) (Rounded.sqDev binary64 m x) := by
  have h1 := hx.sub hm (by norm_num) (by norm_num)
  exact (h1.mul h1 (by norm_num) (by norm_num)).weaken (by norm_num) (by norm_num)

/-- the five numbers of a stack of images, on a grid -/
theorem spatial_rep (imgs : List Img) (M N : ℕ) (hL : 2 ≤ imgs.length) (hsh : ∀ a ∈ imgs, a.h = M ∧ a.w = N)
    (hn : M * N ≤ 2 ^ 53) (hL3 : imgs.length ^ 3 ≤ 2 ^ 53) (hLM : imgs.length * M ≤ 2 ^ 53) (hLN : imgs.length * N ≤ 2 ^ 53)
    (hp : 2 ≤ M * N) (d1 : T.depth (M * N) ≤ 2 ^ 52) (d2 : T.depth M ≤ 2 ^ 52) (d3 : T.depth N ≤ 2 ^ 52) :
    let s := Rounded.spatialData binary64 T.free M N (getIntImgs ℚ i64 imgs)
    let t := Ieee.spatialData T M N (getIntImgs ℚ i64 imgs)
    Rep 210 121 t.var_mean s.var_mean ∧ Rep 525 306 t.avg_var s.avg_var ∧ Rep 210 121 t.avg_mean s.avg_mean ∧
      Rep 525 306 t.avg_var_cav s.avg_var_cav ∧ Rep 525 306 t.avg_var_rav s.avg_var_rav := by
  intro s t
  have hM : 0 < M := Nat.pos_of_ne_zero fun h => by rw [h] at hp; omega
  have hN : 0 < N := Nat.pos_of_ne_zero fun h => by rw [h] at hp; omega
  have hMle : M ≤ 2 ^ 53 := le_trans (Nat.le_mul_of_pos_right M hN) hn
  have hNle : N ≤ 2 ^ 53 := le_trans (Nat.le_mul_of_pos_left N hM) hn
  have hne : imgs ≠ [] := by rintro rfl; simp at hL
  have hdh : (getIntImgs ℚ i64 imgs).h = M ∧ (getIntImgs ℚ i64 imgs).w = N := by
    obtain ⟨a0, t0, rfl⟩ := List.exists_cons_of_ne_nil hne
    have := hsh a0 (by simp)
    simp [getIntImgs, this]
  have hsum : ∀ i j, |((getIntImgs ℚ i64 imgs).sum i j : ℝ)| ≤ 2 ^ (63 : ℤ) := by
    intro i j
    obtain ⟨l, a, rfl⟩ : ∃ l a, imgs = l ++ [a] := ⟨_, _, (List.dropLast_append_getLast hne).symm⟩
    simp only [getIntImgs, List.foldl_append, List.foldl_cons, List.foldl_nil]
    exact i64_abs _
  have hpv : ∀ i j, |((getIntImgs ℚ i64 imgs).pvar i j : ℝ)| ≤ 2 ^ (63 : ℤ) := fun i j => i64_abs _
  obtain ⟨L, hLd⟩ : ∃ L, L = imgs.length := ⟨_, rfl⟩
  have hLi : (getIntImgs ℚ i64 imgs).L = L := hLd.symm
  rw [← hLd] at hL hL3 hLM hLN
  have hLL : L * L ≤ 2 ^ 53 := by
    refine le_trans ?_ hL3
    nlinarith
  have hLle : L ≤ 2 ^ 53 := le_trans (Nat.le_self_pow (by norm_num) _) hL3
  have hLc : L * L * (L - 1) ≤ 2 ^ 53 := by
    refine le_trans ?_ hL3
    calc L * L * (L - 1) ≤ L * L * L := Nat.mul_le_mul_left _ (Nat.sub_le _ _)
      _ = L ^ 3 := by ring
  have hL0 : 0 < L * L * (L - 1) := Nat.mul_pos (Nat.mul_pos (by omega) (by omega)) (by omega)
  -- the averages of the pixels
  have n1 := nat_mul_rep 1 L (by omega) (by norm_num)
  have avg : ∀ i j, Rep 105 65 (rounded (f64 ((getIntImgs ℚ i64 imgs).sum i j) / rounded (.fin 1 * f64 L)))
      (b64 (b64 ((getIntImgs ℚ i64 imgs).sum i j) / b64 (1 * b64 L))) := fun i j => by
    have := (rep_int (hsum i j)).divNat (1 * L) (by omega) (by omega) n1.1 n1.2 (by norm_num) (by norm_num)
    simpa using this
  have n2 := nat_mul_rep 1 (L * L) (by omega) (by norm_num)
  have n3 : rounded (rounded (.fin 1 * f64 ((L * L : ℕ) : ℝ)) * f64 ((L - 1 : ℕ) : ℝ)) = .fin ((L * L * (L - 1) : ℕ) : ℝ) ∧
      b64 (b64 (1 * b64 ((L * L : ℕ) : ℝ)) * b64 ((L - 1 : ℕ) : ℝ)) = ((L * L * (L - 1) : ℕ) : ℝ) := by
    have h1 : rounded (.fin 1 * f64 ((L * L : ℕ) : ℝ)) = .fin ((L * L : ℕ) : ℝ) := by
      have := n2.1
      rwa [Nat.cast_one, one_mul] at this
    have h2 : b64 (1 * b64 ((L * L : ℕ) : ℝ)) = ((L * L : ℕ) : ℝ) := by
      have := n2.2
      rwa [Nat.cast_one, one_mul (L * L)] at this
    rw [h1, h2, f64_nat (L - 1) (by omega), b64_nat (n := L - 1) (by omega), Fl.fin_mul, ← Nat.cast_mul]
    exact ⟨f64_nat _ hLc, b64_nat hLc⟩
  have var : ∀ i j, Rep 105 65 (rounded (f64 ((getIntImgs ℚ i64 imgs).pvar i j) /
        rounded (rounded (.fin 1 * f64 ((L * L : ℕ) : ℝ)) * f64 ((L - 1 : ℕ) : ℝ))))
      (b64 (b64 ((getIntImgs ℚ i64 imgs).pvar i j) / b64 (b64 (1 * b64 ((L * L : ℕ) : ℝ)) * b64 ((L - 1 : ℕ) : ℝ)))) := fun i j =>
    (rep_int (hpv i j)).divNat (L * L * (L - 1)) hL0 hLc n3.1 n3.2 (by norm_num) (by norm_num)
  -- the means
  have mean := meanF_rep T (pixelsOf_forall₂ M N _ _ fun i _ j _ => avg i j) (by rw [pixelsOf_length]; omega)
    (by rw [pixelsOf_length]; exact hn) (by rw [pixelsOf_length]; exact d1)
  have vmean := meanF_rep T (pixelsOf_forall₂ M N _ _ fun i _ j _ => var i j) (by rw [pixelsOf_length]; omega)
    (by rw [pixelsOf_length]; exact hn) (by rw [pixelsOf_length]; exact d1)
  have row : ∀ j, _ := fun j => meanF_rep T (forall₂_rep (List.range M) _ _ fun i _ => avg i j) (by simpa using hM)
    (by simpa using hMle) (by simpa using d2)
  have col : ∀ i, _ := fun i => meanF_rep T (forall₂_rep (List.range N) _ _ fun j _ => avg i j) (by simpa using hN)
    (by simpa using hNle) (by simpa using d3)
  -- the squares of the deviations
  have sq := T.rep 53 (forall₂_map_rep (pixelsOf_forall₂ M N _ _ fun i _ j _ => avg i j) _ _ fun X x h =>
      sqDev_rep mean (h.weaken (by norm_num) (by norm_num)))
    (by norm_num) (by norm_num) (by rw [List.length_map, pixelsOf_length]; exact d1)
    (by rw [List.length_map, pixelsOf_length]; exact nat_zpow hn)
  have srow := T.rep 53 (forall₂_map_rep (forall₂_rep (List.range N) _ _ fun j _ => row j) _ _ fun X x h => sqDev_rep mean h)
    (by norm_num) (by norm_num) (by simpa using d3) (by simpa using nat_zpow hNle)
  have scol := T.rep 53 (forall₂_map_rep (forall₂_rep (List.range M) _ _ fun i _ => col i) _ _ fun X x h => sqDev_rep mean h)
    (by norm_num) (by norm_num) (by simpa using d2) (by simpa using nat_zpow hMle)
  have one : Rep 0 0 (.fin 1) 1 := ⟨rfl, ⟨1, by simp⟩, by simp⟩
  have inv : ∀ n : ℕ, 0 < n → n ≤ 2 ^ 53 → Rep 105 1 (rounded (.fin 1 / .fin n)) (b64 (1 / n)) := fun n h0 hn =>
    (one.divNat n h0 hn rfl rfl (by norm_num) (by norm_num)).weaken (by norm_num) (by norm_num)
  have vM := vmean.divNat (L * M) (by positivity) hLM (f64_nat _ hLM) (b64_nat hLM) (by norm_num) (by norm_num)
  have vN := vmean.divNat (L * N) (by positivity) hLN (f64_nat _ hLN) (b64_nat hLN) (by norm_num) (by norm_num)
  have cav := (((inv N hN hNle).mul srow (by norm_num) (by norm_num)).weaken (k' := 525) (m' := 304) (by norm_num) (by norm_num)).sub
    (vM.weaken (by norm_num) (by norm_num)) (by norm_num) (by norm_num)
  have rav := (((inv M hM hMle).mul scol (by norm_num) (by norm_num)).weaken (k' := 525) (m' := 304) (by norm_num) (by norm_num)).sub
    (vN.weaken (by norm_num) (by norm_num)) (by norm_num) (by norm_num)
  have hv : M * N - 1 ≤ 2 ^ 53 := by omega
  have v1 := sq.divNat (M * N - 1) (by omega) hv (f64_nat _ hv) (b64_nat hv) (by norm_num) (by norm_num)
  have hs : s = Rounded.spatialData binary64 T.free M N (getIntImgs ℚ i64 imgs) := rfl
  have ht : t = Ieee.spatialData T M N (getIntImgs ℚ i64 imgs) := rfl
  rw [hs, ht]
  unfold Ieee.spatialData Rounded.spatialData
  simp only [hdh.1, hdh.2, hLi]
  refine ⟨vmean, ?_, mean, cav, rav⟩
  unfold Ieee.var1 Rounded.var1
  rw [pixelsOf_length, pixelsOf_length]
  exact v1.weaken (by norm_num) (by norm_num)

/-- C105, spatial data: for any stack of at least two images of `M x N` pixels the numbers in float64 are finite and those of the
arithmetic without limits. -/
theorem C105_spatial (imgs : List Img) (M N : ℕ) (hL : 2 ≤ imgs.length) (hsh : ∀ a ∈ imgs, a.h = M ∧ a.w = N)
    (hn : M * N ≤ 2 ^ 53) (hL3 : imgs.length ^ 3 ≤ 2 ^ 53) (hLM : imgs.length * M ≤ 2 ^ 53) (hLN : imgs.length * N ≤ 2 ^ 53)
    (hp : 2 ≤ M * N) (d1 : T.depth (M * N) ≤ 2 ^ 52) (d2 : T.depth M ≤ 2 ^ 52) (d3 : T.depth N ≤ 2 ^ 52) :
    let s := Rounded.spatialData binary64 T.free M N (getIntImgs ℚ i64 imgs)
    Ieee.spatialData T M N (getIntImgs ℚ i64 imgs) =
      ⟨.fin s.var_mean, .fin s.avg_var, .fin s.avg_mean, .fin s.avg_var_cav, .fin s.avg_var_rav⟩ := by
  intro s
  obtain ⟨h1, h2, h3, h4, h5⟩ := spatial_rep T imgs M N hL hsh hn hL3 hLM hLN hp d1 d2 d3
  exact (Ieee.SpatialData.mk.injEq ..).mpr ⟨h1.eq, h2.eq, h3.eq, h4.eq, h5.eq⟩

/-- the accuracy of C84 for the numbers of the computer -/
theorem C105_spatial_accuracy (imgs : List Img) (M N : ℕ) (hL : 2 ≤ imgs.length) (hsh : ∀ a ∈ imgs, a.h = M ∧ a.w = N)
    (B : ℕ) (hfit : ∀ i < M, ∀ j < N, Fits imgs B i j)
    (hn : M * N ≤ 2 ^ 53) (hLB : imgs.length * B ≤ 2 ^ 53) (hL3 : imgs.length ^ 3 ≤ 2 ^ 53)
    (hLM : imgs.length * M ≤ 2 ^ 53) (hLN : imgs.length * N ≤ 2 ^ 53) (hp : 2 ≤ M * N)
    (d1 : T.depth (M * N) ≤ 2 ^ 52) (d2 : T.depth M ≤ 2 ^ 52) (d3 : T.depth N ≤ 2 ^ 52) :
    let u : ℝ := 2 ^ (-53 : ℤ)
    let y : ℕ → ℕ → ℝ := fun i j => Spec.mean (imgs.map fun a => (a.px i j : ℝ))
    let s2 : ℕ → ℕ → ℝ := fun i j => Spec.sampleVar (imgs.map fun a => (a.px i j : ℝ))
    let L : ℝ := imgs.length
    let μ : ℝ := Spec.imgMean M N y
    let σ2 : ℝ := Spec.imgMean M N s2
    let v := Spec.imgSampleVar M N y
    let vc := (∑ j ∈ range N, ((∑ i ∈ range M, y i j) / M - μ) ^ 2) / N
    let vr := (∑ i ∈ range M, ((∑ j ∈ range N, y i j) / N - μ) ^ 2) / M
    let d := T.depth (M * N)
    ∃ mean var_mean var cav rav : ℝ,
      Ieee.spatialData T M N (getIntImgs ℚ i64 imgs) = ⟨.fin var_mean, .fin var, .fin mean, .fin cav, .fin rav⟩ ∧
      |mean - μ| ≤ ((1 + u) ^ (d + 2) - 1) * μ ∧
      |var_mean - σ2| ≤ ((1 + u) ^ (d + 3) - 1) * σ2 ∧
      |var - v| ≤ (1 + u) ^ (d + 4) * (√v + 2 * Spec.slip u B (d + 3)) ^ 2 - v ∧
      |cav - (vc - σ2 / (L * M))|
        ≤ (1 + u) ^ (T.depth N + 6) * (√vc + (Spec.slip u B (T.depth M + 2) + Spec.slip u B (d + 2))) ^ 2 - vc
          + ((1 + u) ^ (d + 5) - 1) * (σ2 / (L * M)) ∧
      |rav - (vr - σ2 / (L * N))|
        ≤ (1 + u) ^ (T.depth M + 6) * (√vr + (Spec.slip u B (T.depth N + 2) + Spec.slip u B (d + 2))) ^ 2 - vr
          + ((1 + u) ^ (d + 5) - 1) * (σ2 / (L * N)) := by
  intro u y s2 L μ σ2 v vc vr d
  obtain ⟨h1, h2, h3, h4, h5⟩ := C84_spatial binary64 T.free imgs M N hL hsh B hfit hn hLB hL3 hLM hLN hp
  exact ⟨_, _, _, _, _, C105_spatial T imgs M N hL hsh hn hL3 hLM hLN hp d1 d2 d3, h1, h2, h3, h4, h5⟩

end Emva
