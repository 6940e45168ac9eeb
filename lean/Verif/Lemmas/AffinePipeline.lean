import Verif.Lemmas.AffineRead
import Verif.Props.C01_C06

/-!
What a successful evaluation guarantees about its data, and the evaluation of a dataset whose pixel values
are `g * x + c`.
-/
set_option autoImplicit false
set_option linter.unusedSectionVars false
namespace Emva
open Spec Data Parser
variable {F : Type} [Field F] [LinearOrder F] [IsStrictOrderedRing F]

namespace Loader
section
variable {K : Type} [DecidableEq K] {V W : Type}
  (fload : Str → Option (Except PyErr Img)) (path : Str)

theorem loadPhotons_all (P : List Img → Prop) (e : K) (l : List (K × List Str))
    (hP : ∀ p ∈ l, ∀ sh imgs sh', sh.length ≤ 1 → loadImgs fload path p.2 sh = .ok (imgs, sh') → P imgs)
    (st st' : KindData K (List Img) × List (ℕ × ℕ)) (hs : st.2.length ≤ 1)
    (h : loadPhotons fload path id e l st = .ok st') (hd : AllKD P st.1) :
    AllKD P st'.1 ∧ st'.2.length ≤ 1 := by
  induction l generalizing st with
  | nil => simp only [loadPhotons, Except.ok.injEq] at h; subst h; exact ⟨hd, hs⟩
  | cons p l ih =>
    obtain ⟨ph, fs⟩ := p
    obtain ⟨d, sh⟩ := st
    simp only [loadPhotons] at h
    split at h
    · simp at h
    · rename_i imgs sh' hl
      obtain ⟨-, -, -, h4⟩ := loadImgs_series fload path fs sh imgs sh' hl
      exact ih (fun p hp => hP p (by simp [hp])) _ (h4 hs) h
        (allKD_step hd e ph (hP (ph, fs) (by simp) sh imgs sh' hs hl))

theorem loadExposures_all (P : List Img → Prop) (zero : K) (images : Images K) (es : List K)
    (hP : ∀ e ∈ images, ∀ p ∈ e.2, ∀ sh imgs sh', sh.length ≤ 1 → loadImgs fload path p.2 sh = .ok (imgs, sh') → P imgs)
    (st st' : KindData K (List Img) × List (ℕ × ℕ)) (hs : st.2.length ≤ 1)
    (h : loadExposures fload path id zero images es st = .ok st') (hd : AllKD P st.1) :
    AllKD P st'.1 ∧ st'.2.length ≤ 1 := by
  induction es generalizing st with
  | nil => simp only [loadExposures, Except.ok.injEq] at h; subst h; exact ⟨hd, hs⟩
  | cons e es ih =>
    simp only [loadExposures] at h
    split at h
    · simp at h
    · rename_i inner hi
      split at h
      · simp at h
      · split at h
        · simp at h
        · split at h
          · simp at h
          · rename_i st1 hl
            obtain ⟨h1, h2⟩ := loadPhotons_all fload path P e inner
              (fun p hp => hP (e, inner) (mem_of_get? hi) p hp) st st1 hs hl hd
            exact ih st1 h2 h h1

theorem loadImgs_src (fs : List Str) (sh : List (ℕ × ℕ)) (imgs : List Img) (sh' : List (ℕ × ℕ))
    (h : loadImgs fload path fs sh = .ok (imgs, sh')) : ∀ a ∈ imgs, ∃ f, fload f = some (.ok a) := by
  induction fs generalizing sh imgs with
  | nil =>
    simp only [loadImgs, Except.ok.injEq, Prod.mk.injEq] at h
    obtain ⟨rfl, rfl⟩ := h
    simp
  | cons f fs ih =>
    simp only [loadImgs] at h
    split at h
    · simp at h
    · simp at h
    · rename_i img hf
      split at h
      · simp at h
      · split at h
        · simp at h
        · rename_i l sh'' hl'
          simp only [Except.ok.injEq, Prod.mk.injEq] at h
          obtain ⟨rfl, rfl⟩ := h
          intro a ha
          rcases List.mem_cons.1 ha with rfl | ha
          · exact ⟨_, hf⟩
          · exact ih _ _ hl' a ha

end

theorem mapKD_nil {V W : Type} (f : V → W) : mapKD f ([] : KindData F V) = [] := rfl

/-- the images a result was made from -/
theorem load_inv (wr : ℤ → ℤ) (fload : Str → Option (Except PyErr Img)) (path : Str)
    (ord : List F → List F) (images : Kind → Images F) (r : Loaded F F)
    (h : load wr fload path 0 ord images = .ok r) :
    ∃ t s : KindData F (List Img), r.temporal = mapKD (temporalEntry F wr) t ∧
      r.spatial = mapKD (getIntImgs F wr) s ∧
      AllKD (fun imgs => ∀ a ∈ imgs, a.shape = (r.height, r.width) ∧ ∃ f, fload f = some (.ok a)) t ∧
      AllKD (fun imgs => ∀ a ∈ imgs, a.shape = (r.height, r.width) ∧ ∃ f, fload f = some (.ok a)) s := by
  unfold load at h
  have e2 := loadExposures_raw fload path (temporalEntry F wr) (0 : F)
    (images .temporal) (ord (Dict.keys (images .temporal))) [] []
  rw [mapKD_nil] at e2
  rw [e2] at h
  cases h1 : loadExposures fload path id (0 : F) (images .temporal) (ord (Dict.keys (images .temporal))) ([], []) with
  | error e => rw [h1] at h; simp [Except.map] at h
  | ok st =>
    obtain ⟨t, sh⟩ := st
    rw [h1] at h
    simp only [Except.map] at h
    have e4 := loadExposures_raw fload path (getIntImgs F wr) (0 : F)
      (images .spatial) (ord (Dict.keys (images .spatial))) [] sh
    rw [mapKD_nil] at e4
    rw [e4] at h
    cases h2 : loadExposures fload path id (0 : F) (images .spatial) (ord (Dict.keys (images .spatial))) ([], sh) with
    | error e => rw [h2] at h; simp [Except.map] at h
    | ok st' =>
      obtain ⟨s, sh'⟩ := st'
      rw [h2] at h
      simp only [Except.map] at h
      obtain ⟨a1, -, a3⟩ := loadExposures_series fload path (fun _ => True) (0 : F) (images .temporal) _
        (fun _ _ _ _ => trivial) _ _ h1 (by intro e he; simp at he)
      obtain ⟨b1, b2, b3⟩ := loadExposures_series fload path (fun _ => True) (0 : F) (images .spatial) _
        (fun _ _ _ _ => trivial) _ _ h2 (by intro e he; simp at he)
      have s1 := (loadExposures_all fload path (fun imgs => ∀ a ∈ imgs, ∃ f, fload f = some (.ok a)) (0 : F)
        (images .temporal) _ (fun _ _ _ _ _ _ _ _ h => loadImgs_src fload path _ _ _ _ h) _ _ (by simp) h1
        (by intro e he; simp at he)).1
      have s2 := (loadExposures_all fload path (fun imgs => ∀ a ∈ imgs, ∃ f, fload f = some (.ok a)) (0 : F)
        (images .spatial) _ (fun _ _ _ _ _ _ _ _ h => loadImgs_src fload path _ _ _ _ h) ([], sh) _ (a3 (by simp)) h2
        (by intro e he; simp at he)).1
      match sh', b1, b2, b3, h with
      | [], _, _, _, h => simp at h
      | shape :: rest, b1, b2, b3, h =>
        have hr : rest = [] := by
          have := b3 (a3 (by simp))
          simpa using this
        subst hr
        simp only [Except.ok.injEq] at h
        subst h
        refine ⟨t, s, rfl, rfl, ?_, ?_⟩
        · intro e he p hp a ha
          exact ⟨by simpa using b2 _ ((a1 e he p hp).2 a ha), s1 e he p hp a ha⟩
        · intro e he p hp a ha
          exact ⟨by simpa using (b1 e he p hp).2 a ha, s2 e he p hp a ha⟩

/-- the loaded data do not depend on the integer type if the reduced data of the series do not -/
theorem load_congr (wr wr' : ℤ → ℤ) (fload : Str → Option (Except PyErr Img)) (path : Str)
    (ord : List F → List F) (images : Kind → Images F)
    (ht : ∀ e ∈ images .temporal, ∀ p ∈ e.2, ∀ sh imgs sh', sh.length ≤ 1 →
      loadImgs fload path p.2 sh = .ok (imgs, sh') → temporalEntry F wr imgs = temporalEntry F wr' imgs)
    (hs : ∀ e ∈ images .spatial, ∀ p ∈ e.2, ∀ sh imgs sh', sh.length ≤ 1 →
      loadImgs fload path p.2 sh = .ok (imgs, sh') → getIntImgs F wr imgs = getIntImgs F wr' imgs) :
    (load wr fload path 0 ord images : Except PyErr (Loaded F F)) = load wr' fload path 0 ord images := by
  unfold load
  have e1 := loadExposures_raw fload path (temporalEntry F wr) (0 : F)
    (images .temporal) (ord (Dict.keys (images .temporal))) [] []
  have e2 := loadExposures_raw fload path (temporalEntry F wr') (0 : F)
    (images .temporal) (ord (Dict.keys (images .temporal))) [] []
  rw [mapKD_nil] at e1 e2
  rw [e1, e2]
  cases h1 : loadExposures fload path id (0 : F) (images .temporal) (ord (Dict.keys (images .temporal))) ([], []) with
  | error e => rfl
  | ok st =>
    obtain ⟨t, sh⟩ := st
    obtain ⟨a1, a2⟩ := loadExposures_all fload path (fun imgs => temporalEntry F wr imgs = temporalEntry F wr' imgs)
      (0 : F) (images .temporal) _ ht _ _ (by simp) h1 (by intro e he; simp at he)
    have c1 : mapKD (temporalEntry F wr) t = mapKD (temporalEntry F wr') t := by
      have := mapKD_congr a1 (temporalEntry F wr') (temporalEntry F wr) id fun imgs h => h
      rw [this]
      simp [mapKD, mapV]
    simp only [Except.map, c1]
    have e3 := loadExposures_raw fload path (getIntImgs F wr) (0 : F)
      (images .spatial) (ord (Dict.keys (images .spatial))) [] sh
    have e4 := loadExposures_raw fload path (getIntImgs F wr') (0 : F)
      (images .spatial) (ord (Dict.keys (images .spatial))) [] sh
    rw [mapKD_nil] at e3 e4
    rw [e3, e4]
    cases h2 : loadExposures fload path id (0 : F) (images .spatial) (ord (Dict.keys (images .spatial))) ([], sh) with
    | error e => rfl
    | ok st' =>
      obtain ⟨s, sh'⟩ := st'
      obtain ⟨b1, -⟩ := loadExposures_all fload path (fun imgs => getIntImgs F wr imgs = getIntImgs F wr' imgs)
        (0 : F) (images .spatial) _ hs ([], sh) _ a2 h2 (by intro e he; simp at he)
      have c2 : mapKD (getIntImgs F wr) s = mapKD (getIntImgs F wr') s := by
        have := mapKD_congr b1 (getIntImgs F wr') (getIntImgs F wr) id fun imgs h => h
        rw [this]
        simp [mapKD, mapV]
      simp only [Except.map, c2]

end Loader

/-! ### int64 -/

theorem dmean_i64 (imgs : List Img) (h : ∀ a ∈ imgs, ∀ i j, i64 (a.px i j) = a.px i j) (s t : IntAcc F)
    (hd : s.dmean = t.dmean) (ho : s.oi = t.oi) :
    (imgs.foldl (intStep i64) s).dmean = (imgs.foldl (intStep id) t).dmean := by
  induction imgs generalizing s t with
  | nil => exact hd
  | cons a l ih =>
    have ha : (fun r c => i64 (a.px r c)) = a.px := by funext i j; exact h a (by simp) i j
    simp only [List.foldl_cons]
    refine ih (fun b hb => h b (by simp [hb])) _ _ ?_ ?_
    · simp only [intStep, ha, ho, hd, id]
    · simp only [intStep, ha, id]

/-- pixel values, number of images and envelope of a series -/
theorem getIntImgs_i64 (imgs : List Img) (B : ℤ) (hB : ∀ a ∈ imgs, ∀ i j, 0 ≤ a.px i j ∧ a.px i j ≤ B)
    (he : (imgs.length : ℤ) ^ 3 * B ^ 2 < 2 ^ 65) : getIntImgs F i64 imgs = getIntImgs F id imgs := by
  have h1 : (getIntImgs F i64 imgs).sum = (getIntImgs F id imgs).sum := by
    funext i j
    rw [(C04_int64_exact F imgs B i j ⟨fun a ha => hB a ha i j, he⟩).1, sum_id]
    rfl
  have h2 : (getIntImgs F i64 imgs).pvar = (getIntImgs F id imgs).pvar := by
    funext i j
    rw [(C04_int64_exact F imgs B i j ⟨fun a ha => hB a ha i j, he⟩).2, pvar_id]
    simp [pxs, pow_two, List.map_map, Function.comp_def]
  have h3 : (getIntImgs F i64 imgs).dmean = (getIntImgs F id imgs).dmean := by
    refine dmean_i64 imgs (fun a ha i j => ?_) _ _ rfl rfl
    have := hB a ha i j
    have hl : (1 : ℤ) ≤ (imgs.length : ℤ) := by
      have := List.length_pos_of_mem ha
      omega
    refine i64_of_nonneg this.1 ?_
    by_contra hc
    have h63 : (2 : ℤ) ^ 63 ≤ B := by omega
    have h4 : ((2 : ℤ) ^ 63) ^ 2 ≤ B ^ 2 := pow_le_pow_left₀ (by positivity) h63 2
    have h5 : (1 : ℤ) ≤ (imgs.length : ℤ) ^ 3 := one_le_pow₀ hl
    have h6 : B ^ 2 ≤ (imgs.length : ℤ) ^ 3 * B ^ 2 := by nlinarith [sq_nonneg B]
    norm_num at h4 he
    linarith
  unfold getIntImgs at h1 h2 h3 ⊢
  simp only at h1 h2 h3 ⊢
  simp only [IntImgs.mk.injEq, true_and]
  exact ⟨h1, h2, h3⟩

theorem temporalEntry_i64 (imgs : List Img) (h w : ℕ) (B : ℤ) (hL : 2 ≤ imgs.length)
    (hsh : ∀ a ∈ imgs, a.shape = (h, w)) (hB : ∀ a ∈ imgs, ∀ i j, 0 ≤ a.px i j ∧ a.px i j ≤ B)
    (he1 : (imgs.length : ℤ) ^ 3 * B ^ 2 < 2 ^ 65)
    (he : (h : ℤ) * w * ((imgs.length : ℤ) ^ 3 * B ^ 2) < 2 ^ 65) :
    temporalEntry F i64 imgs = temporalEntry F id imgs := by
  have hsh' : ∀ a ∈ imgs, a.h = h ∧ a.w = w := fun a ha => by simpa [Img.shape] using hsh a ha
  have e := C04_totals_exact F imgs h w B hL hsh' (fun a ha r _ c _ => hB a ha r c) he
  have hd := getIntImgs_i64 (F := F) imgs B hB he1
  have hh : (getIntImgs F id imgs).h = h ∧ (getIntImgs F id imgs).w = w := by
    cases imgs with
    | nil => simp at hL
    | cons a l => exact hsh' a (by simp)
  have f1 : (temporalEntry F id imgs).sum =
      ∑ r ∈ Finset.range h, ∑ c ∈ Finset.range w, (imgs.map fun a : Img => a.px r c).sum := by
    show sumImg id _ _ _ = _
    simp only [sumImg, hh.1, hh.2, sum_id, pxs, id]
  have f2 : (temporalEntry F id imgs).pvar = ∑ r ∈ Finset.range h, ∑ c ∈ Finset.range w, (imgs.length : ℤ) *
          (imgs.length * (imgs.map fun a : Img => a.px r c ^ 2).sum
            - (imgs.map fun a : Img => a.px r c).sum ^ 2) := by
    show sumImg id _ _ _ = _
    simp only [sumImg, hh.1, hh.2, pvar_id, id]
    simp [pxs, pow_two, List.map_map, Function.comp_def]
  have f3 : (temporalEntry F i64 imgs).dmean = (temporalEntry F id imgs).dmean := by
    show (getIntImgs F i64 imgs).dmean = (getIntImgs F id imgs).dmean
    rw [hd]
  cases hx : temporalEntry F i64 imgs with
  | mk a b c =>
    cases hy : temporalEntry F id imgs with
    | mk a' b' c' =>
      rw [hx] at e f3
      rw [hy] at f1 f2 f3
      simp only at e f1 f2 f3
      rw [TemporalEntry.mk.injEq]
      exact ⟨by rw [e.1, f1], by rw [e.2, f2], f3⟩


/-! ### the data of a successful evaluation -/
namespace Data
open Loader

/-- all elements are finite -/
def AllFin (l : List (Fl F)) : Prop := ∃ l' : List F, l = l'.map .fin

theorem allFin_nil : AllFin ([] : List (Fl F)) := ⟨[], rfl⟩

theorem AllFin.append {l : List (Fl F)} (h : AllFin l) {x : Fl F} (hx : ∃ y, x = .fin y) : AllFin (l ++ [x]) := by
  obtain ⟨l', rfl⟩ := h
  obtain ⟨y, rfl⟩ := hx
  exact ⟨l' ++ [y], by simp⟩

theorem AllFin.replicate {l : List (Fl F)} (h : AllFin l) {x : Fl F} (hx : x ∈ l) (n : ℕ) : AllFin (List.replicate n x) := by
  obtain ⟨l', rfl⟩ := h
  obtain ⟨y, -, rfl⟩ := List.mem_map.1 hx
  exact ⟨List.replicate n y, by simp⟩

/-- lengths and finiteness of temporal data -/
structure Complete (t : Temporal F) : Prop where
  len_p : t.u_p.length = t.u_y.length
  len_s : t.s2_y.length = t.u_y.length
  len_sd : t.s2_ydark.length = t.u_ydark.length
  fin_y : AllFin t.u_y
  fin_d : AllFin t.u_ydark
  fin_s : AllFin t.s2_y
  fin_sd : AllFin t.s2_ydark

/-- the entry gives finite numbers -/
def FinEntry (e : TemporalEntry F) : Prop := ∃ d, e.dmean = .fin d

theorem finEntry_point {px : ℕ} (hp : 0 < px) {e : TemporalEntry F} (h : FinEntry e) :
    (∃ y, (getTemporalData px e).mean = .fin y) ∧
      ∃ y, (getTemporalData px e).var - (getTemporalData px e).dmean = .fin y := by
  obtain ⟨d, hd⟩ := h
  have h0 : (px : F) ≠ 0 := by exact_mod_cast hp.ne'
  have h2 : (2 : F) * px ≠ 0 := mul_ne_zero two_ne_zero h0
  have h4 : (4 : F) * px ≠ 0 := mul_ne_zero four_ne_zero h0
  unfold getTemporalData
  simp only [hd, Fl.fin_mul, Fl.fin_div h2, Fl.fin_div h4, Fl.sq_fin, Fl.fin_div (two_ne_zero (α := F)), Fl.fin_sub]
  exact ⟨⟨_, rfl⟩, ⟨_, rfl⟩⟩

theorem brightLoop_complete {px : ℕ} (hp : 0 < px) (inner : Dict F (TemporalEntry F))
    (hi : ∀ p ∈ inner, FinEntry p.2) (ps : List F) (a a' : Temporal F) (ha : Complete a)
    (h : brightLoop px inner ps a = .ok a') :
    Complete a' ∧ a'.u_ydark = a.u_ydark ∧ a'.texp = a.texp ∧ a'.u_y.length = a.u_y.length + ps.length := by
  induction ps generalizing a with
  | nil => simp only [brightLoop, Except.ok.injEq] at h; subst h; exact ⟨ha, rfl, rfl, rfl⟩
  | cons p ps ih =>
    simp only [brightLoop] at h
    split at h
    · simp at h
    · rename_i e he
      obtain ⟨f1, f2⟩ := finEntry_point hp (hi _ (mem_of_get? he))
      obtain ⟨g1, g2, g3, g4⟩ := ih _ (by
        exact ⟨by simp [ha.len_p], by simp [ha.len_s], ha.len_sd, ha.fin_y.append f1, ha.fin_d, ha.fin_s.append f2,
          ha.fin_sd⟩) h
      refine ⟨g1, g2, g3, ?_⟩
      rw [g4]; simp; omega

theorem expLoop_complete {px : ℕ} (hp : 0 < px) (data : KindData F (TemporalEntry F))
    (hd : AllKD FinEntry data) (ts : List F) (a a' : Temporal F) (ha : Complete a)
    (h : expLoop px data ts a = .ok a') :
    Complete a' ∧ a'.texp = a.texp ∧ a'.u_ydark.length = a.u_ydark.length + ts.length ∧
      a.u_y.length + ts.length ≤ a'.u_y.length := by
  induction ts generalizing a with
  | nil => simp only [expLoop, Except.ok.injEq] at h; subst h; exact ⟨ha, rfl, rfl, le_rfl⟩
  | cons t ts ih =>
    simp only [expLoop] at h
    split at h
    · simp at h
    · rename_i inner hi
      split at h
      · simp at h
      · split at h
        · simp at h
        · rename_i hl
          split at h
          · simp at h
          · rename_i e he
            split at h
            · simp at h
            · rename_i a1 hb
              have hin := hd _ (mem_of_get? hi)
              obtain ⟨f1, f2⟩ := finEntry_point hp (hin _ (mem_of_get? he))
              obtain ⟨b1, b2, b3, b4⟩ := brightLoop_complete hp inner hin _ _ _ (by
                exact ⟨ha.len_p, ha.len_s, by simp [ha.len_sd], ha.fin_y, ha.fin_d.append f1, ha.fin_s,
                  ha.fin_sd.append f2⟩) hb
              obtain ⟨g1, g2, g3, g4⟩ := ih _ b1 h
              refine ⟨g1, g2.trans b3, ?_, ?_⟩
              · rw [g3, b2]; simp; omega
              · simp only [List.length_drop] at b4
                simp only [List.length_cons]
                omega

theorem getTemporal_complete {px : ℕ} (hp : 0 < px) (data : KindData F (TemporalEntry F))
    (hd : AllKD FinEntry data) (t : Temporal F) (h : getTemporal px data = .ok t) :
    Complete t ∧ t.texp.length = t.u_ydark.length ∧
      (t.u_y.length = t.u_ydark.length ∨ (t.u_y.length ≠ 1 ∧ t.u_ydark.length ≠ 1)) := by
  unfold getTemporal at h
  dsimp only at h
  split at h
  · simp at h
  · rename_i t' ht
    obtain ⟨g1, g2, g3, g4⟩ := expLoop_complete hp data hd _ _ _
      ⟨rfl, rfl, rfl, allFin_nil, allFin_nil, allFin_nil, allFin_nil⟩ ht
    simp only [List.length_nil, zero_add] at g3 g4
    split at h
    · rename_i hl
      rw [hl] at g3
      have hsd := g1.len_sd
      have hfd := g1.fin_d
      have hfs := g1.fin_sd
      have htx := g2
      match hx : t'.u_ydark, hy : t'.s2_ydark, hz : t'.texp, g3, hsd with
      | [x], [y], [], g3, hsd => rw [hz] at g2; dsimp only at g2; rw [← g2] at hl; simp at hl
      | [x], [y], z :: zs, g3, hsd =>
        rw [hx, hy, hz] at h
        simp only [repeatFirst, Except.ok.injEq] at h
        subst h
        refine ⟨⟨g1.len_p, g1.len_s, by simp, g1.fin_y, hfd.replicate (by rw [hx]; simp) _, g1.fin_s,
          hfs.replicate (by rw [hy]; simp) _⟩, by simp, .inl (by simp [g1.len_p])⟩
    · rename_i hl
      simp only [Except.ok.injEq] at h
      subst h
      refine ⟨g1, by rw [g2, g3], ?_⟩
      by_cases h0 : (sortedKeys data).length = 0
      · have hnil : sortedKeys data = [] := List.length_eq_zero_iff.1 h0
        rw [hnil] at ht
        simp only [expLoop, Except.ok.injEq] at ht
        subst ht
        exact .inl rfl
      · exact .inr ⟨by omega, by omega⟩

theorem dmean_finite (imgs : List Img) (h : ∀ a ∈ imgs, 0 < a.size) : FinEntry (temporalEntry F id imgs) := by
  cases imgs with
  | nil => exact ⟨0, rfl⟩
  | cons a l => exact ⟨_, dmean_eq id a l h⟩

theorem getSpatialData_inv {rows cols : ℕ} {d : IntImgs F} {s : SpatialData F} (h : getSpatialData rows cols d = .ok s) :
    0 < rows ∧ 0 < cols ∧ s.L = d.L ∧ s.L ≠ 0 ∧ s.h = d.h ∧ s.w = d.w ∧ s.sum = d.sum := by
  unfold getSpatialData at h
  split at h
  · simp at h
  · rename_i hL
    dsimp only at h
    split at h
    · simp at h
    · split at h
      · simp at h
      · simp only [Except.ok.injEq] at h
        subst h
        exact ⟨by omega, by omega, rfl, hL, rfl, rfl, rfl⟩

theorem getSpatial_inv {rows cols : ℕ} {data : KindData F (IntImgs F)} {s : Spatial F} (h : getSpatial rows cols data = .ok s)
    {P : IntImgs F → Prop} (hd : AllKD P data) :
    0 < rows ∧ 0 < cols ∧ s.dark.L ≠ 0 ∧ ∃ d, P d ∧ s.dark.L = d.L ∧ s.dark.h = d.h ∧ s.dark.w = d.w ∧ s.dark.sum = d.sum := by
  unfold getSpatial at h
  split at h
  · rename_i e inner
    dsimp only at h
    split at h
    · simp at h
    · split at h
      · simp at h
      · split at h
        · simp at h
        · rename_i d hdk
          split at h
          · simp at h
          · rename_i dark hdark
            split at h
            · simp at h
            · split at h
              · simp at h
              · split at h
                · simp at h
                · simp only [Except.ok.injEq] at h
                  subst h
                  obtain ⟨h1, h2, h3, h4, h5, h6, h7⟩ := getSpatialData_inv hdark
                  exact ⟨h1, h2, h4, d, hd (e, inner) (by simp) _ (mem_of_get? hdk), h3, h5, h6, h7⟩
  · simp at h

end Data

namespace Pipeline
open Loader Results

/-- what the data of a result satisfy -/
structure Facts (c : ℤ) (r : Res F) : Prop where
  complete : Complete r.temporal
  texp : r.temporal.texp.length = r.temporal.u_ydark.length
  bal : r.temporal.u_y.length = r.temporal.u_ydark.length ∨
    (r.temporal.u_y.length ≠ 1 ∧ r.temporal.u_ydark.length ≠ 1)
  L : r.spatial.dark.L ≠ 0

theorem evaluate_facts (c : ℤ) (fload : Str → Option (Except PyErr Img)) (path : Str) (ord : List F → List F)
    (images : Kind → Images F) (pixels : Option ℕ) (pixel_area : Option F) (index_u_ysat : Option ℤ) (r : Res F)
    (h : evaluate id fload path ord images pixels pixel_area index_u_ysat = .ok r) :
    Facts c r ∧ ((∀ f img, fload f = some (.ok img) → ∀ i < img.h, ∀ j < img.w, 0 ≤ img.px i j ∧ 0 ≤ img.px i j + c) →
      DarkNonneg c r.spatial.dark) := by
  unfold evaluate at h
  cases hl : (load id fload path 0 ord images : Except PyErr (Loaded F F)) with
  | error e => rw [hl] at h; cases h
  | ok imgs =>
    rw [hl] at h
    obtain ⟨t, s, et, es, at', as'⟩ := load_inv id fload path ord images imgs hl
    cases hm : Data.make imgs pixels with
    | error e => simp only [bind, Except.bind, hm] at h; cases h
    | ok dat =>
      simp only [bind, Except.bind, hm] at h
      cases h
      unfold Data.make at hm
      dsimp only at hm
      split at hm
      · simp at hm
      · rename_i tt htt
        split at hm
        · simp at hm
        · rename_i ss hss
          simp only [Except.ok.injEq] at hm
          subst hm
          have hP : AllKD (fun d : IntImgs F => (∀ f img, fload f = some (.ok img) → ∀ i < img.h, ∀ j < img.w,
              0 ≤ img.px i j ∧ 0 ≤ img.px i j + c) → ∀ i < d.h, ∀ j < d.w, 0 ≤ d.sum i j ∧ 0 ≤ d.sum i j + c * d.L)
              imgs.spatial := by
            rw [es]
            intro e he p hp
            simp only [mapKD, mapV, List.mem_map] at he
            obtain ⟨e', he', rfl⟩ := he
            simp only [List.mem_map] at hp
            obtain ⟨p', hp', rfl⟩ := hp
            intro hn i hi j hj
            have hsrc := as' e' he' p' hp'
            have hpx : ∀ a ∈ p'.2, 0 ≤ a.px i j ∧ 0 ≤ a.px i j + c := by
              intro a ha
              obtain ⟨hsh, f, hf⟩ := hsrc a ha
              simp only [Img.shape, Prod.mk.injEq] at hsh
              refine hn f a hf i ?_ j ?_
              · cases hq : p'.2 with
                | nil => rw [hq] at ha; simp at ha
                | cons b l =>
                  have := (hsrc b (by rw [hq]; simp)).1
                  simp only [Img.shape, Prod.mk.injEq] at this
                  simp only [hq, getIntImgs, List.head?_cons, Option.map_some, Option.getD_some] at hi
                  omega
              · cases hq : p'.2 with
                | nil => rw [hq] at ha; simp at ha
                | cons b l =>
                  have := (hsrc b (by rw [hq]; simp)).1
                  simp only [Img.shape, Prod.mk.injEq] at this
                  simp only [hq, getIntImgs, List.head?_cons, Option.map_some, Option.getD_some] at hj
                  omega
            rw [sum_id]
            have hL : (getIntImgs F id p'.2).L = p'.2.length := rfl
            rw [hL]
            constructor
            · refine List.sum_nonneg fun x hx => ?_
              obtain ⟨a, ha, rfl⟩ := List.mem_map.1 hx
              exact (hpx a ha).1
            · have : (pxs p'.2 i j).sum + c * p'.2.length = (p'.2.map fun a => a.px i j + c).sum := by
                rw [List.sum_map_add]
                simp [pxs, mul_comm]
              rw [this]
              refine List.sum_nonneg fun x hx => ?_
              obtain ⟨a, ha, rfl⟩ := List.mem_map.1 hx
              exact (hpx a ha).2
          obtain ⟨g1, g2, g3, d, g4, g5, g6, g7, g8⟩ := getSpatial_inv hss hP
          have hpx : 0 < pixelsOf imgs pixels := by
            unfold pixelsOf
            split
            · exact Nat.mul_pos g2 g1
            · exact Nat.mul_pos g2 g1
            · rename_i n hn
              exact Nat.pos_of_ne_zero hn
          have hfin : AllKD FinEntry imgs.temporal := by
            rw [et]
            intro e he p hp
            simp only [mapKD, mapV, List.mem_map] at he
            obtain ⟨e', he', rfl⟩ := he
            simp only [List.mem_map] at hp
            obtain ⟨p', hp', rfl⟩ := hp
            refine dmean_finite _ fun a ha => ?_
            have := (at' e' he' p' hp' a ha).1
            simp only [Img.shape, Prod.mk.injEq] at this
            rw [Img.size, this.1, this.2]
            exact Nat.mul_pos g1 g2
          obtain ⟨k1, k2, k3⟩ := getTemporal_complete hpx _ hfin tt htt
          refine ⟨⟨k1, k2, k3, g3⟩, fun hn i hi j hj => ?_⟩
          have := g4 hn i (by rw [← g6]; exact hi) j (by rw [← g7]; exact hj)
          show 0 ≤ ss.dark.sum i j ∧ 0 ≤ ss.dark.sum i j + c * ss.dark.L
          rw [g5, g8]
          exact this

theorem evaluate_aff (g c : ℤ) (hg : 0 < g) (fload : Str → Option (Except PyErr Img)) (path : Str) (ord : List F → List F)
    (images : Kind → Images F) (pixels : Option ℕ) (pixel_area : Option F) (index_u_ysat : Option ℤ) (N : ℕ)
    (hN : ∀ e ∈ images .temporal, ∀ p ∈ e.2, p.2.length = N) :
    ∃ δ : F, evaluate id (affFiles g c fload) path ord images pixels pixel_area index_u_ysat =
      (evaluate id fload path ord images pixels pixel_area index_u_ysat).map (affRes g c δ) := by
  unfold evaluate
  rw [load_aff g c hg fload path ord images N hN]
  cases (load id fload path 0 ord images : Except PyErr (Loaded F F)) with
  | error e => exact ⟨0, rfl⟩
  | ok imgs =>
    simp only [Except.map, bind, Except.bind]
    rw [make_aff g hg c N imgs pixels]
    cases hm : Data.make imgs pixels with
    | error e => exact ⟨0, rfl⟩
    | ok dat => exact ⟨((c * N * imgs.height * imgs.width : ℤ) : F) / (2 * dat.pixels), rfl⟩

/-- The envelope in which the int64 accumulators are exact: pixel values in `[0, B]`, at most `P` pixels per
image, and the products of the series lengths below `2 ^ 65`. -/
structure Envelope (fload : Str → Option (Except PyErr Img)) (images : Kind → Images F) (P : ℕ) (B : ℤ) : Prop where
  pixel : ∀ f img, fload f = some (.ok img) → ∀ i j, 0 ≤ img.px i j ∧ img.px i j ≤ B
  size : ∀ f img, fload f = some (.ok img) → img.h * img.w ≤ P
  temporal : ∀ e ∈ images .temporal, ∀ p ∈ e.2, 2 ≤ p.2.length ∧ (p.2.length : ℤ) ^ 3 * B ^ 2 < 2 ^ 65 ∧
    (P : ℤ) * ((p.2.length : ℤ) ^ 3 * B ^ 2) < 2 ^ 65
  spatial : ∀ e ∈ images .spatial, ∀ p ∈ e.2, (p.2.length : ℤ) ^ 3 * B ^ 2 < 2 ^ 65

theorem evaluate_i64 (fload : Str → Option (Except PyErr Img)) (path : Str) (ord : List F → List F)
    (images : Kind → Images F) (pixels : Option ℕ) (pixel_area : Option F) (index_u_ysat : Option ℤ) (P : ℕ) (B : ℤ)
    (he : Envelope fload images P B) :
    evaluate i64 fload path ord images pixels pixel_area index_u_ysat =
      evaluate id fload path ord images pixels pixel_area index_u_ysat := by
  unfold evaluate
  rw [load_congr i64 id fload path ord images]
  · intro e hm p hp sh imgs sh' hs hl
    obtain ⟨h1, h2, -, h4⟩ := loadImgs_series fload path p.2 sh imgs sh' hl
    have hsrc := loadImgs_src fload path _ _ _ _ hl
    obtain ⟨t1, t2, t3⟩ := he.temporal e hm p hp
    have hpx : ∀ a ∈ imgs, ∀ i j, 0 ≤ a.px i j ∧ a.px i j ≤ B := by
      intro a ha
      obtain ⟨f, hf⟩ := hsrc a ha
      exact he.pixel f a hf
    cases imgs with
    | nil => simp at h1; omega
    | cons a l =>
      have ha := h2 a (by simp)
      obtain ⟨s0, hs0⟩ : ∃ s, sh' = [s] := by
        have := h4 hs
        match sh', ha, this with
        | [s], _, _ => exact ⟨s, rfl⟩
        | _ :: _ :: _, _, h => simp at h
      obtain ⟨f, hf⟩ := hsrc a (by simp)
      have hP := he.size f a hf
      have hsa : s0 = (a.h, a.w) := by
        rw [hs0] at ha
        simpa [Img.shape] using (List.mem_singleton.1 ha).symm
      refine temporalEntry_i64 (a :: l) a.h a.w B (by rw [h1]; exact t1) ?_ hpx (by rw [h1]; exact t2) ?_
      · intro b hb
        have := h2 b hb
        rw [hs0, hsa] at this
        exact List.mem_singleton.1 this
      · rw [h1]
        refine lt_of_le_of_lt ?_ t3
        have hP' : (a.h : ℤ) * a.w ≤ P := by exact_mod_cast hP
        exact mul_le_mul_of_nonneg_right hP' (by positivity)
  · intro e hm p hp sh imgs sh' hs hl
    obtain ⟨h1, -⟩ := loadImgs_series fload path p.2 sh imgs sh' hl
    have hsrc := loadImgs_src fload path _ _ _ _ hl
    refine getIntImgs_i64 imgs B ?_ (by rw [h1]; exact he.spatial e hm p hp)
    intro a ha
    obtain ⟨f, hf⟩ := hsrc a ha
    exact he.pixel f a hf

end Pipeline
end Emva
