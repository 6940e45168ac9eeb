import Verif.Lemmas.Spatial
import Verif.Props.C17_C18
import Verif.Props.C01_C06
import Mathlib.Tactic.IntervalCases

/-!
C19-C20: the spatial data of `Data1288`.
-/
set_option autoImplicit false
set_option linter.unusedSectionVars false
namespace Emva
open Py Loader Spec Data Finset
variable {F : Type} [Field F] [LinearOrder F] [IsStrictOrderedRing F]

theorem getSpatialData_ok (rows cols : ℕ) (hr : 0 < rows) (hc : 0 < cols) (d : IntImgs F)
    (hL : 1 ≤ d.L) : ∃ s, getSpatialData rows cols d = .ok s := by
  unfold getSpatialData
  rw [if_neg (by omega)]
  simp only
  rw [if_neg (by omega), if_neg (by omega)]
  exact ⟨_, rfl⟩

/-- C19: for data as the loader produces them (non-empty image shape, at least one image per series)
the spatial part is accepted exactly when there is one exposure with a dark and one other series, and
the result is built from these two; otherwise `ValueError`. -/
theorem C19_validation (rows cols : ℕ) (hr : 0 < rows) (hc : 0 < cols)
    (d : KindData F (IntImgs F)) (hw : WF2 d) (hL : ∀ e p v, get2 d e p = some v → 1 ≤ v.L) :
    (∀ e p dk br, OnePair d e p dk br → ∃ s sd sb,
      getSpatial rows cols d = .ok s ∧ s.texp = e ∧
      getSpatialData rows cols dk = .ok sd ∧ getSpatialData rows cols br = .ok sb ∧ s.dark = sd ∧
      (0 < p → s.u_p = p ∧ s.bright = sb) ∧
      (p < 0 → s.u_p = 0 ∧ s.bright = sd)) ∧
    ((¬ ∃ e p dk br, OnePair d e p dk br) → getSpatial rows cols d = .error .valueError) := by
  constructor
  · rintro e p dk br ⟨hp0, hk, hg⟩
    match d, hk with
    | [(e', i)], hk =>
      have : e' = e := by simpa [Dict.keys] using hk
      subst this
      have hi : Dict.get? [(e', i)] e' = some i := by simp [Dict.get?]
      have hwi := hw.2 e' i hi
      have hg' : ∀ p' v, Dict.get? i p' = some v ↔ (p' = 0 ∧ v = dk) ∨ (p' = p ∧ v = br) := by
        intro p' v; rw [← hg]; simp [get2, hi]
      have hd : Dict.get? i 0 = some dk := (hg' 0 dk).2 (.inl ⟨rfl, rfl⟩)
      have hb : Dict.get? i p = some br := (hg' p br).2 (.inr ⟨rfl, rfl⟩)
      have hmem : ∀ q, q ∈ sortedKeys i ↔ q = 0 ∨ q = p := by
        intro q
        rw [mem_sortedKeys, ← Dict.has_iff, Dict.has_iff_exists]
        constructor
        · rintro ⟨v, hv⟩; rcases (hg' q v).1 hv with h | h
          · exact .inl h.1
          · exact .inr h.1
        · rintro (rfl | rfl)
          · exact ⟨_, hd⟩
          · exact ⟨_, hb⟩
      have hlt := sortedKeys_lt hwi
      have hcases : (0 < p ∧ sortedKeys i = [0, p]) ∨ (p < 0 ∧ sortedKeys i = [p, 0]) := by
        have hnd : (sortedKeys i).Nodup := hlt.imp fun h => h.ne
        have uniq : ∀ l : List F, l.Pairwise (· < ·) → (∀ q, q ∈ l ↔ q = 0 ∨ q = p) →
            sortedKeys i = l := by
          intro l hl hml
          have hperm : (sortedKeys i).Perm l :=
            (List.perm_ext_iff_of_nodup hnd (hl.imp fun h => h.ne)).2 fun q => by rw [hmem, hml]
          exact hperm.eq_of_pairwise (fun a b _ _ h1 h2 => absurd (h1.trans h2) (lt_irrefl _)) hlt hl
        rcases lt_or_gt_of_ne hp0 with h | h
        · exact .inr ⟨h, uniq [p, 0] (by simp [h]) (by intro q; simp; tauto)⟩
        · exact .inl ⟨h, uniq [0, p] (by simp [h]) (by intro q; simp)⟩
      obtain ⟨sd, hsd⟩ := getSpatialData_ok rows cols hr hc dk (hL e' 0 dk (by simp [get2, hi, hd]))
      obtain ⟨sb, hsb⟩ := getSpatialData_ok rows cols hr hc br (hL e' p br (by simp [get2, hi, hb]))
      have h0 : ¬ ((0 : F) ∉ sortedKeys i) := by rw [hmem]; simp
      rcases hcases with ⟨hp, hs⟩ | ⟨hp, hs⟩
      · refine ⟨⟨e', p, sd, sb⟩, sd, sb, ?_, rfl, hsd, hsb, rfl, fun _ => ⟨rfl, rfl⟩,
          fun h => absurd h (not_lt.2 hp.le)⟩
        simp only [getSpatial]
        rw [if_neg h0, if_neg (by rw [hs]; simp)]
        simp [hd, hsd, hs, hb, hsb]
      · refine ⟨⟨e', 0, sd, sd⟩, sd, sb, ?_, rfl, hsd, hsb, rfl,
          fun h => absurd h (not_lt.2 hp.le), fun _ => ⟨rfl, rfl⟩⟩
        simp only [getSpatial]
        rw [if_neg h0, if_neg (by rw [hs]; simp)]
        simp [hd, hsd, hs]
  · intro hno
    match d with
    | [] => rfl
    | _ :: _ :: _ => rfl
    | [(e, i)] =>
      have hi : Dict.get? [(e, i)] e = some i := by simp [Dict.get?]
      have hwi := hw.2 e i hi
      simp only [getSpatial]
      by_cases hz : (0 : F) ∈ sortedKeys i
      · rw [if_neg (not_not.2 hz)]
        by_cases hl : (sortedKeys i).length = 2
        · exfalso
          obtain ⟨a, b, hab⟩ := List.length_eq_two.1 hl
          have hlt := sortedKeys_lt hwi
          rw [hab] at hz hlt
          simp only [List.pairwise_cons, List.mem_cons, List.not_mem_nil, or_false,
            forall_eq] at hlt
          have hne := hlt.1
          have hmem : ∀ q, q ∈ Dict.keys i ↔ q = a ∨ q = b := by
            intro q; rw [← mem_sortedKeys, hab]; simp
          have ex : ∀ q, q ∈ Dict.keys i → ∃ v, Dict.get? i q = some v := fun q hq =>
            (Dict.has_iff_exists _ _).1 ((Dict.has_iff _ _).2 hq)
          obtain ⟨va, hva⟩ := ex a ((hmem a).2 (.inl rfl))
          obtain ⟨vb, hvb⟩ := ex b ((hmem b).2 (.inr rfl))
          have hg : ∀ q v, get2 [(e, i)] e q = some v ↔
              (q = a ∧ v = va) ∨ (q = b ∧ v = vb) := by
            intro q v
            simp only [get2, hi, Option.bind_some]
            constructor
            · intro h
              rcases (hmem q).1 (Dict.mem_keys_of_get? h) with rfl | rfl
              · rw [hva] at h; cases h; exact .inl ⟨rfl, rfl⟩
              · rw [hvb] at h; cases h; exact .inr ⟨rfl, rfl⟩
            · rintro (⟨rfl, rfl⟩ | ⟨rfl, rfl⟩) <;> assumption
          simp only [List.mem_cons, List.not_mem_nil, or_false] at hz
          rcases hz with hz | hz
          · subst hz
            exact hno ⟨e, b, va, vb, hne.ne', by simp [Dict.keys], hg⟩
          · subst hz
            exact hno ⟨e, a, vb, va, hne.ne, by simp [Dict.keys], fun q v => by
              rw [hg]; tauto⟩
        · rw [if_pos hl]
      · rw [if_pos hz]

/-- C19: the whole constructor.  Loaded data are accepted exactly when the temporal part pairs every
exposure and the spatial part is one dark/bright pair; otherwise `ValueError`. -/
theorem C19_constructor (r : Loaded F F) (pixels : Option ℕ) (hr : 0 < r.height) (hc : 0 < r.width)
    (hwt : WF2 r.temporal) (hws : WF2 r.spatial)
    (hL : ∀ e p v, get2 r.spatial e p = some v → 1 ≤ v.L) :
    ((∃ D, make r pixels = .ok D) ↔
      Paired r.temporal ∧ ∃ e p dk br, OnePair r.spatial e p dk br) ∧
    ∀ err, make r pixels = .error err → err = .valueError := by
  obtain ⟨s1, s2⟩ := C19_validation r.height r.width hr hc r.spatial hws hL
  unfold make
  simp only
  generalize pixelsOf r pixels = px
  obtain ⟨t1, t2⟩ := C17_acceptance px r.temporal hwt
  by_cases hp : Paired r.temporal
  · obtain ⟨t, ht⟩ := t1 hp
    rw [ht]
    simp only
    by_cases hs : ∃ e p dk br, OnePair r.spatial e p dk br
    · obtain ⟨e, p, dk, br, h⟩ := id hs
      obtain ⟨s, -, -, hs', -⟩ := s1 e p dk br h
      rw [hs']
      simp [hp, hs]
    · rw [s2 hs]
      simp [hs]
  · rw [t2 hp]
    simp [hp]

/-- one exposure, a dark and a bright pair of 1 x 2 images; the photon count is a parameter -/
def sampleStack (p : ℚ) (extra : List (ℚ × IntImgs ℚ)) : KindData ℚ (IntImgs ℚ) :=
  [(5, [(p, getIntImgs ℚ i64 [⟨1, 2, fun _ j => j⟩, ⟨1, 2, fun _ j => 3 * j⟩]),
        (0, getIntImgs ℚ i64 [⟨1, 2, fun _ _ => 0⟩, ⟨1, 2, fun _ _ => 0⟩])] ++ extra)]

/-- what the accepted sample contains, and the two rejections -/
example :
    (match getSpatial 1 2 (sampleStack 7 []) with
      | .ok s => some (s.u_p, s.bright.avg_mean, s.bright.var_mean, s.bright.avg_var)
      | .error _ => none) = some (7, .fin 1, .fin 1, .fin 2) ∧
    (match getSpatial 1 2 (sampleStack (-7) []) with
      | .ok s => some (s.u_p, s.bright.avg_mean)
      | .error _ => none) = some (0, .fin 0) ∧
    raised (getSpatial 1 2 (sampleStack 7 [(9, getIntImgs ℚ i64 [])])) = some .valueError ∧
    raised (getSpatial 1 2 (sampleStack 7 [] ++ [(6, [])])) = some .valueError := by
  decide +kernel

/-- C20: the spatial statistics of a stack of `L ≥ 2` images of shape `M x N` are the EMVA ones. -/
theorem C20_statistics (imgs : List Img) (M N : ℕ) (hp : 0 < M * N) (hL : 2 ≤ imgs.length)
    (hsh : ∀ a ∈ imgs, a.h = M ∧ a.w = N) (B : ℤ)
    (hfit : ∀ i < M, ∀ j < N, Fits imgs B i j) :
    let y : ℕ → ℕ → F := fun i j => Spec.mean (imgs.map fun a => (a.px i j : F))
    let s2 : ℕ → ℕ → F := fun i j => Spec.sampleVar (imgs.map fun a => (a.px i j : F))
    let L : F := imgs.length
    let μ : F := Spec.imgMean M N y
    let σ2 : F := Spec.imgMean M N s2
    ∃ s, getSpatialData M N (getIntImgs F i64 imgs) = .ok s ∧
      s.L = imgs.length ∧ s.M = M ∧ s.N = N ∧ s.h = M ∧ s.w = N ∧
      (∀ i < M, ∀ j < N, s.sum i j = (imgs.map fun a => a.px i j).sum) ∧
      s.avg_mean = .fin μ ∧
      s.var_mean = .fin σ2 ∧
      (2 ≤ M * N → s.avg_var = .fin (Spec.imgSampleVar M N y)) ∧
      (M * N = 1 → s.avg_var = .nan) ∧
      s.avg_var_cav = .fin ((∑ j ∈ range N, ((∑ i ∈ range M, y i j) / M - μ) ^ 2) / N
        - σ2 / (L * M)) ∧
      s.avg_var_rav = .fin ((∑ i ∈ range M, ((∑ j ∈ range N, y i j) / N - μ) ^ 2) / M
        - σ2 / (L * N)) := by
  intro y s2 L μ σ2
  have hM : 0 < M := Nat.pos_of_mul_pos_right hp
  have hN : 0 < N := Nat.pos_of_mul_pos_left hp
  have hL0 : (imgs.length : F) ≠ 0 := by
    have : imgs.length ≠ 0 := by omega
    exact_mod_cast this
  have hL1 : (imgs.length : F) - 1 ≠ 0 := by
    have : (1 : F) < imgs.length := by exact_mod_cast (by omega : 1 < imgs.length)
    exact (sub_pos.2 this).ne'
  have hM0 : (M : F) ≠ 0 := by exact_mod_cast hM.ne'
  have hN0 : (N : F) ≠ 0 := by exact_mod_cast hN.ne'
  have hd : (getIntImgs F i64 imgs).h = M ∧ (getIntImgs F i64 imgs).w = N := by
    obtain ⟨a0, t0, rfl⟩ := List.exists_cons_of_ne_nil (show imgs ≠ [] by rintro rfl; simp at hL)
    have := hsh a0 (by simp)
    simp [getIntImgs, this]
  have hLd : (getIntImgs F i64 imgs).L = imgs.length := rfl
  have hsum : ∀ i < M, ∀ j < N, (getIntImgs F i64 imgs).sum i j = (imgs.map fun a => a.px i j).sum :=
    fun i hi j hj => (C04_int64_exact F imgs B i j (hfit i hi j hj)).1
  have havg : ∀ i < M, ∀ j < N, (.fin ((getIntImgs F i64 imgs).sum i j : F) /
      .fin (imgs.length : F) : Fl F) = .fin (y i j) := by
    intro i hi j hj
    rw [Fl.fin_div hL0, hsum i hi j hj]
    congr 1
    show _ = Spec.mean _
    unfold Spec.mean
    rw [List.length_map]
    congr 1
    simp [List.map_map, Function.comp_def]
  have hvar : ∀ i < M, ∀ j < N, (.fin ((getIntImgs F i64 imgs).pvar i j : F) /
      .fin ((imgs.length : F) * imgs.length * ((imgs.length : F) - 1)) : Fl F) = .fin (s2 i j) := by
    intro i hi j hj
    rw [Fl.fin_div (mul_ne_zero (mul_ne_zero hL0 hL0) hL1),
      C01_pvar_sample_variance F imgs hL B i j (hfit i hi j hj)]
    congr 1
    show _ = s2 i j
    field_simp
    rfl
  have favg : flat M N (fun i j => (.fin ((getIntImgs F i64 imgs).sum i j : F) /
      .fin (imgs.length : F) : Fl F)) = flat M N fun i j => .fin (y i j) :=
    flat_congr _ _ _ _ havg
  have fvar : flat M N (fun i j => (.fin ((getIntImgs F i64 imgs).pvar i j : F) /
      .fin ((imgs.length : F) * imgs.length * ((imgs.length : F) - 1)) : Fl F))
      = flat M N fun i j => .fin (s2 i j) := flat_congr _ _ _ _ hvar
  unfold getSpatialData
  rw [if_neg (by rw [hLd]; omega)]
  simp only [hd.1, hd.2, hLd]
  rw [if_neg (by omega), if_neg (by omega)]
  refine ⟨_, rfl, rfl, rfl, rfl, rfl, rfl, hsum, ?_, ?_, ?_, ?_, ?_, ?_⟩
  · simp only; rw [favg, mean_flat M N hp]
  · simp only; rw [fvar, mean_flat M N hp]
  · intro h2; simp only; rw [favg, npVar1_flat M N h2]
  · intro h1
    simp only
    rw [favg]
    have h1' : M = 1 ∧ N = 1 := by simpa using h1
    rw [h1'.1, h1'.2]
    exact npVar1_single (y 0 0)
  · simp only
    rw [favg, mean_flat M N hp, fvar, mean_flat M N hp]
    have hrow : ((List.range N).map fun j => Fl.mean ((List.range M).map fun i =>
        (.fin ((getIntImgs F i64 imgs).sum i j : F) / .fin (imgs.length : F) : Fl F)))
        = (List.range N).map fun j => .fin ((∑ i ∈ range M, y i j) / M) := by
      refine List.map_congr_left fun j hj => ?_
      rw [← mean_range M hM]
      congr 1
      refine List.map_congr_left fun i hi => ?_
      exact havg i (by simpa using hi) j (by simpa using hj)
    rw [hrow, List.map_map]
    simp only [Function.comp_def, Fl.fin_sub, Fl.sq_fin]
    rw [sum_range_fl, Fl.fin_mul, Fl.fin_div (by
      push_cast; exact mul_ne_zero hL0 hM0), Fl.fin_sub, Fl.fin_inj]
    push_cast
    simp only [pow_two]
    ring
  · simp only
    rw [favg, mean_flat M N hp, fvar, mean_flat M N hp]
    have hcol : ((List.range M).map fun i => Fl.mean ((List.range N).map fun j =>
        (.fin ((getIntImgs F i64 imgs).sum i j : F) / .fin (imgs.length : F) : Fl F)))
        = (List.range M).map fun i => .fin ((∑ j ∈ range N, y i j) / N) := by
      refine List.map_congr_left fun i hi => ?_
      rw [← mean_range N hN]
      congr 1
      refine List.map_congr_left fun j hj => ?_
      exact havg i (by simpa using hi) j (by simpa using hj)
    rw [hcol, List.map_map]
    simp only [Function.comp_def, Fl.fin_sub, Fl.sq_fin]
    rw [sum_range_fl, Fl.fin_mul, Fl.fin_div (by
      push_cast; exact mul_ne_zero hL0 hN0), Fl.fin_sub, Fl.fin_inj]
    push_cast
    simp only [pow_two]
    ring

/-- C20, a single image: the temporal variance of the stack is undefined and reported as NaN. -/
theorem C20_single_image (a : Img) (hp : 0 < a.h * a.w) (B : ℤ)
    (hfit : ∀ i < a.h, ∀ j < a.w, Fits [a] B i j) :
    ∃ s, getSpatialData a.h a.w (getIntImgs F i64 [a]) = .ok s ∧ s.var_mean = .nan ∧
      s.avg_var_cav = .nan ∧ s.avg_var_rav = .nan := by
  have hM : 0 < a.h := Nat.pos_of_mul_pos_right hp
  have hN : 0 < a.w := Nat.pos_of_mul_pos_left hp
  have hd : (getIntImgs F i64 [a]).h = a.h ∧ (getIntImgs F i64 [a]).w = a.w := by
    simp [getIntImgs]
  have hLd : (getIntImgs F i64 [a]).L = 1 := rfl
  have fvar : flat a.h a.w (fun i j => (.fin ((getIntImgs F i64 [a]).pvar i j : F) /
      .fin (((1 : ℕ) : F) * ((1 : ℕ) : F) * (((1 : ℕ) : F) - 1)) : Fl F))
      = flat a.h a.w fun i j => .nan := by
    refine flat_congr _ _ _ _ fun i hi j hj => ?_
    rw [(C04_int64_exact F [a] B i j (hfit i hi j hj)).2]
    simp
  have hnan : ∀ l : List (Fl F), l.foldl (· + ·) .nan = .nan := by
    intro l; induction l with
    | nil => rfl
    | cons x l ih => simpa using ih
  have hmean : Fl.mean (flat a.h a.w fun _ _ => (.nan : Fl F)) = .nan := by
    have : flat a.h a.w (fun _ _ => (.nan : Fl F)) = List.replicate (a.h * a.w) .nan := by
      rw [List.eq_replicate_iff]
      refine ⟨flat_length _ _ _, ?_⟩
      intro x hx; simp [flat] at hx; exact hx.2.2
    rw [this]
    obtain ⟨n, hn⟩ := Nat.exists_eq_succ_of_ne_zero hp.ne'
    rw [hn, List.replicate_succ]
    simp [Fl.mean, Fl.sum, hnan]
  unfold getSpatialData
  rw [if_neg (by rw [hLd]; omega)]
  simp only [hd.1, hd.2, hLd]
  rw [if_neg (by omega), if_neg (by omega)]
  refine ⟨_, rfl, ?_, ?_, ?_⟩ <;> simp only [fvar, hmean, Fl.nan_div, Fl.sub_nan]

/-- Concrete case: two 2 x 2 images. -/
example : ∃ imgs : List Img, 2 ≤ imgs.length ∧ (∀ a ∈ imgs, a.h = 2 ∧ a.w = 2) ∧
    (∀ i < 2, ∀ j < 2, Fits imgs 10 i j) ∧
    (match getSpatialData 2 2 (getIntImgs ℚ i64 imgs) with
      | .ok s => some (s.avg_mean, s.var_mean, s.avg_var, s.avg_var_cav, s.avg_var_rav)
      | .error _ => none) =
      some (.fin 2, .fin 1, .fin (10 / 3), .fin 0, .fin 2) := by
  refine ⟨[⟨2, 2, fun i j => if (i, j) = (0, 0) then 0 else if (i, j) = (1, 1) then 4 else
      if (i, j) = (0, 1) then 0 else 2⟩,
    ⟨2, 2, fun i j => if (i, j) = (0, 0) then 0 else if (i, j) = (1, 1) then 4 else
      if (i, j) = (0, 1) then 2 else 4⟩], by simp, by simp, ?_, by decide +kernel⟩
  intro i hi j hj
  unfold Fits
  interval_cases i <;> interval_cases j <;> simp

end Emva
