import Verif.Lemmas.Nearby

/-!
Lemmas for C99: the data and the indices of nearby evaluations.
-/
set_option autoImplicit false
namespace Emva
namespace Nearby
open Results Data Spec Filter Topology Asymptotics

variable {r : Res ℝ} {uy ud sy sd : List ℝ}

/-- mean signal, its dark value, the variances and the photons at point `i` -/
def sig (r : Res ℝ) (i : ℕ) : ℝ := entry r.temporal.u_y i - entry r.temporal.u_ydark i
def vari (r : Res ℝ) (i : ℕ) : ℝ := entry r.temporal.s2_y i - entry r.temporal.s2_ydark i
def pho (r : Res ℝ) (i : ℕ) : ℝ := r.temporal.u_p.getD i 0

theorem ty_uy (i : ℕ) : Ty r (fun p => entry p.2.temporal.u_y i) (entry r.temporal.u_y i) :=
  Ty.of_le <| vic_near.mono fun _ h => entry_near h.1 h.2.u_y i
theorem ty_ud (i : ℕ) : Ty r (fun p => entry p.2.temporal.u_ydark i) (entry r.temporal.u_ydark i) :=
  Ty.of_le <| vic_near.mono fun _ h => entry_near h.1 h.2.u_ydark i
theorem ty_sy (i : ℕ) : Ty r (fun p => entry p.2.temporal.s2_y i) (entry r.temporal.s2_y i) :=
  Ty.of_le <| vic_near.mono fun _ h => entry_near h.1 h.2.s2_y i
theorem ty_sd (i : ℕ) : Ty r (fun p => entry p.2.temporal.s2_ydark i) (entry r.temporal.s2_ydark i) :=
  Ty.of_le <| vic_near.mono fun _ h => entry_near h.1 h.2.s2_ydark i
theorem ty_pho (i : ℕ) : Ty r (fun p => pho p.2 i) (pho r i) :=
  Ty.of_le <| vic_near.mono fun _ h => getD_near h.1 h.2.u_p i
theorem ty_sig (i : ℕ) : Ty r (fun p => sig p.2 i) (sig r i) := (ty_uy i).sub (ty_ud i)
theorem ty_vari (i : ℕ) : Ty r (fun p => vari p.2 i) (vari r i) := (ty_sy i).sub (ty_sd i)

/-- the data of an evaluation near `r`, as lists over the positions -/
structure Shape (n : ℕ) (r' : Res ℝ) : Prop where
  u_y : r'.temporal.u_y = ((List.range n).map (entry r'.temporal.u_y)).map .fin
  u_ydark : r'.temporal.u_ydark = ((List.range n).map (entry r'.temporal.u_ydark)).map .fin
  s2_y : r'.temporal.s2_y = ((List.range n).map (entry r'.temporal.s2_y)).map .fin
  s2_ydark : r'.temporal.s2_ydark = ((List.range n).map (entry r'.temporal.s2_ydark)).map .fin
  u_p : r'.temporal.u_p = (List.range n).map (pho r')

theorem shape_near (h : DataOk r uy ud sy sd) : ∀ᶠ p in vic r, Shape uy.length p.2 := by
  filter_upwards [vic_near] with p hp
  have e1 := entry_list hp.2.u_y
  have e2 := entry_list hp.2.u_ydark
  have e3 := entry_list hp.2.s2_y
  have e4 := entry_list hp.2.s2_ydark
  have l1 : r.temporal.u_y.length = uy.length := by rw [h.u_y]; simp
  have l2 : r.temporal.u_ydark.length = uy.length := by rw [h.u_ydark]; simp [h.dark]
  have l3 : r.temporal.s2_y.length = uy.length := by rw [h.s2_y]; simp [h.var]
  have l4 : r.temporal.s2_ydark.length = uy.length := by rw [h.s2_ydark]; simp [h.vard]
  rw [l1] at e1; rw [l2] at e2; rw [l3] at e3; rw [l4] at e4
  exact ⟨e1, e2, e3, e4, getD_list _ (by rw [← hp.2.u_p.length_eq, h.photons])⟩

theorem entry_fin (l : List ℝ) (i : ℕ) : entry (l.map .fin) i = l.getD i 0 := by
  unfold entry
  rw [List.getElem?_map, List.getD_eq_getElem?_getD]
  cases l[i]? <;> rfl

theorem shape_self (h : DataOk r uy ud sy sd) : Shape uy.length r := by
  refine ⟨?_, ?_, ?_, ?_, getD_list _ h.photons⟩
  · rw [h.u_y]; simp only [funext (entry_fin uy)]; exact congrArg _ (getD_list uy rfl)
  · rw [h.u_ydark]; simp only [funext (entry_fin ud)]; exact congrArg _ (getD_list ud h.dark)
  · rw [h.s2_y]; simp only [funext (entry_fin sy)]; exact congrArg _ (getD_list sy h.var)
  · rw [h.s2_ydark]; simp only [funext (entry_fin sd)]; exact congrArg _ (getD_list sd h.vard)

theorem Shape.signal {n : ℕ} {r' : Res ℝ} (h : Shape n r') :
    Np.bin (· - ·) r'.temporal.u_y r'.temporal.u_ydark = .ok (((List.range n).map (sig r')).map .fin) := by
  rw [signal_fin r' _ _ h.u_y h.u_ydark (by simp), diff_range]; rfl

/-! ### the saturation index -/

/-- the running maximum of the loop: 0 at first, then a value of the list -/
def mval (f : ℕ → ℝ) : Option ℕ → ℝ
  | none => 0
  | some i => f i

theorem idx_range (n : ℕ) (f : ℕ → ℝ) (i : ℕ) : Np.idx (((List.range n).map f).map Fl.fin) i =
    if i < n then .ok (.fin (f i)) else .error .indexError := by
  have h0 : ¬ ((i : ℤ) < 0) := by omega
  unfold Np.idx
  by_cases h : i < n
  · simp [h, h0]
  · simp [h, h0]

theorem satLoop_agree {n : ℕ} {f g : ℕ → ℝ}
    (h : ∀ m : Option ℕ, (∀ i, m = some i → i < n) → ∀ j < n, (mval f m ≤ f j ↔ mval g m ≤ g j))
    (i : ℕ) (m : Option ℕ) (hm : ∀ i, m = some i → i < n) (k : ℕ) :
    satLoop (((List.range n).map f).map Fl.fin) i (.fin (mval f m)) k =
      satLoop (((List.range n).map g).map Fl.fin) i (.fin (mval g m)) k := by
  induction i generalizing m k with
  | zero => rfl
  | succ i ih =>
    simp only [satLoop, idx_range]
    by_cases hi : i < n
    swap
    · simp only [if_neg hi]
    simp only [if_pos hi, Fl.le_fin, Fl.lt_fin, decide_eq_true_eq]
    have e := h m hm i hi
    have ihi : ∀ k, satLoop (((List.range n).map f).map Fl.fin) i (.fin (f i)) k =
        satLoop (((List.range n).map g).map Fl.fin) i (.fin (g i)) k := fun k =>
      ih (some i) (by rintro _ ⟨⟩; exact hi) k
    by_cases c1 : mval f m ≤ f i
    · simp only [c1, e.1 c1, if_true, ihi]
    · have c1' : ¬ mval g m ≤ g i := fun hc => c1 (e.2 hc)
      simp only [c1, c1', if_false]
      by_cases hj : ((i : ℤ) - 1).natAbs < n
      swap
      · simp only [if_neg hj]
      have e2 := h m hm _ hj
      by_cases c2 : mval f m ≤ f ((i : ℤ) - 1).natAbs
      · simp only [if_pos hj, Fl.le_fin, decide_eq_true_eq, c2, e2.1 c2, if_true, ihi]
      · have c2' : ¬ mval g m ≤ g ((i : ℤ) - 1).natAbs := fun hc => c2 (e2.2 hc)
        simp only [if_pos hj, Fl.le_fin, Fl.lt_fin, decide_eq_true_eq, c2, c2', if_false, lt_of_not_ge c1, lt_of_not_ge c2,
          lt_of_not_ge c1', lt_of_not_ge c2', decide_true, Bool.and_self, if_true]

theorem val_indexUysat (r : Res ℝ) : val indexUysat r = match r.index_u_ysat with
    | some i => if i ≠ 0 then .ok i
        else (satLoop r.temporal.s2_y r.temporal.s2_y.length (.fin 0) 0).map fun k => ((k : ℕ) : ℤ)
    | none => (satLoop r.temporal.s2_y r.temporal.s2_y.length (.fin 0) 0).map fun k => ((k : ℕ) : ℤ) := by
  unfold val indexUysat
  cases r.index_u_ysat with
  | none => cases satLoop r.temporal.s2_y r.temporal.s2_y.length (.fin 0) 0 <;> rfl
  | some i =>
    dsimp only
    split
    · rfl
    · cases satLoop r.temporal.s2_y r.temporal.s2_y.length (.fin 0) 0 <;> rfl

theorem usat_near (h : DataOk r uy ud sy sd) (hd : Distinct r sy) :
    ∀ᶠ p in vic r, val indexUysat p.2 = val indexUysat r := by
  rcases hd with ⟨i, hi, h0⟩ | ⟨hnd, hz⟩
  · filter_upwards [vic_near] with p hp
    rw [val_indexUysat, val_indexUysat, hp.2.index, hi]
    simp [h0]
  · have hs := shape_self h
    have hl : r.temporal.s2_y.length = uy.length := by rw [h.s2_y]; simp [h.var]
    have hent : ∀ i, entry r.temporal.s2_y i = sy.getD i 0 := fun i => by rw [h.s2_y, entry_fin]
    have hpair : ∀ᶠ p in vic r, ∀ m ∈ (none :: (List.range uy.length).map some : List (Option ℕ)), ∀ j ∈ List.range uy.length,
        (mval (entry p.2.temporal.s2_y) m ≤ entry p.2.temporal.s2_y j ↔
          mval (entry r.temporal.s2_y) m ≤ entry r.temporal.s2_y j) := by
      have fin1 : ∀ (L : List (Option ℕ)) (P : Option ℕ → ℝ × Res ℝ → Prop), (∀ m ∈ L, ∀ᶠ p in vic r, P m p) →
          ∀ᶠ p in vic r, ∀ m ∈ L, P m p := by
        intro L P hL
        induction L with
        | nil => simp
        | cons a L ih =>
          filter_upwards [hL a (by simp), ih fun m hm => hL m (by simp [hm])] with p h1 h2
          simpa using ⟨h1, h2⟩
      have fin2 : ∀ (L : List ℕ) (P : ℕ → ℝ × Res ℝ → Prop), (∀ m ∈ L, ∀ᶠ p in vic r, P m p) →
          ∀ᶠ p in vic r, ∀ m ∈ L, P m p := by
        intro L P hL
        induction L with
        | nil => simp
        | cons a L ih =>
          filter_upwards [hL a (by simp), ih fun m hm => hL m (by simp [hm])] with p h1 h2
          simpa using ⟨h1, h2⟩
      refine fin1 _ _ fun m hm => fin2 _ _ fun j hj => ?_
      have hj' : j < sy.length := by rw [h.var]; simpa using hj
      have ej : entry r.temporal.s2_y j = sy[j] := by rw [hent]; simp [hj']
      cases m with
      | none =>
        refine Ty.le_agree (Ty.const 0) (ty_sy j) ?_
        rw [ej]
        intro e
        have e' : (0 : ℝ) = sy[j] := e
        exact hz (e' ▸ List.getElem_mem hj')
      | some i =>
        have hi : i < sy.length := by rw [h.var]; simpa using hm
        by_cases hij : i = j
        · subst hij
          exact Eventually.of_forall fun p => by simp [mval]
        · refine Ty.le_agree (ty_sy i) (ty_sy j) ?_
          have ei : entry r.temporal.s2_y i = sy[i] := by rw [hent]; simp [hi]
          show entry r.temporal.s2_y i ≠ _
          rw [ei, ej]
          exact fun e => hij ((List.Nodup.getElem_inj_iff hnd).1 e)
    filter_upwards [vic_near, shape_near h, hpair] with p hp hsp hpp
    have hlp : p.2.temporal.s2_y.length = uy.length := by rw [hsp.s2_y]; simp
    have key : satLoop p.2.temporal.s2_y p.2.temporal.s2_y.length (.fin 0) 0 =
        satLoop r.temporal.s2_y r.temporal.s2_y.length (.fin 0) 0 := by
      rw [hl, hlp]
      have := satLoop_agree (n := uy.length) (f := entry p.2.temporal.s2_y) (g := entry r.temporal.s2_y)
        (fun m hm j hj => hpp m (by
          cases m with
          | none => simp
          | some i => simpa using hm i rfl) j (by simpa using hj)) uy.length none (by simp) 0
      rw [← hsp.s2_y, ← hs.s2_y] at this
      exact this
    rw [val_indexUysat, val_indexUysat, hp.2.index, key]

end Nearby
end Emva
