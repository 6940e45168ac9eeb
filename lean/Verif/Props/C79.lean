import Verif.Spec.Depend
import Verif.Model.Pipeline
import Verif.Props.C22_C24
import Verif.Props.C17_Values

/-!
C79: results depend on the measured data they are computed from, and on nothing else.
-/
set_option autoImplicit false
set_option linter.unusedSectionVars false
namespace Emva
open Spec Data Results
namespace Results
variable {F : Type} {α β : Type}

/-- two computations give the same value on objects with the same data -/
def Frame (s : List Inp) (m m' : M F α) : Prop :=
  ∀ r r', Agree s r r' → (m r).1 = (m' r').1 ∧ Agree s (m r).2 (m' r').2

theorem Agree.mono {s t : List Inp} {r r' : Res F} (h : Agree s r r') (hst : t ⊆ s) : Agree t r r' :=
  fun i hi => h i (hst hi)

theorem Frame.pure (s : List Inp) (a : α) : Frame s (pure a : M F α) (pure a) := fun _ _ h => ⟨rfl, h⟩
theorem Frame.lift (s : List Inp) (x : Except PyErr α) : Frame s (lift x : M F α) (lift x) := fun _ _ h => ⟨rfl, h⟩

theorem Frame.bind {s : List Inp} {x x' : M F α} {f f' : α → M F β} (hx : Frame s x x')
    (hf : ∀ a, Frame s (f a) (f' a)) : Frame s (x >>= f) (x' >>= f') := fun r r' h => by
  obtain ⟨h1, h2⟩ := hx r r' h
  show (M.bind x f r).1 = (M.bind x' f' r').1 ∧ Agree s (M.bind x f r).2 (M.bind x' f' r').2
  unfold M.bind
  rcases hxr : x r with ⟨v, q⟩
  rcases hxt : x' r' with ⟨v', q'⟩
  rw [hxr, hxt] at h1 h2
  simp only at h1 h2
  subst h1
  cases v with
  | error e => exact ⟨rfl, h2⟩
  | ok a => exact hf a q q' h2

theorem Frame.ask_bind {s : List Inp} (g : Res F → α) {f f' : α → M F β}
    (hf : ∀ r r', Agree s r r' → Frame s (f (g r)) (f' (g r'))) : Frame s (ask g >>= f) (ask g >>= f') :=
  fun r r' h => hf r r' h r r' h

theorem Frame.ask {s : List Inp} (g : Res F → α) (hg : ∀ r r', Agree s r r' → g r = g r') :
    Frame s (ask g) (ask g) := fun r r' h => ⟨by show Except.ok (g r) = .ok (g r'); rw [hg r r' h], h⟩

theorem Frame.ite {s : List Inp} {c : Prop} [Decidable c] {x x' y y' : M F α} (hx : Frame s x x')
    (hy : Frame s y y') : Frame s (if c then x else y) (if c then x' else y') := by
  split <;> assumption

theorem Frame.mk {s : List Inp} {m m' : M F α} (h : Frame s m m') {r r' : Res F} (hr : Agree s r r') :
    val m r = val m' r' := (h r r' hr).1

variable [Field F] [LinearOrder F]

theorem frame_index {s : List Inp} (h1 : .index ∈ s) (h2 : .s2_y ∈ s) :
    Frame s (indexUysat : M F ℤ) indexUysat := fun r r' h => by
  have e1 : r.index_u_ysat = r'.index_u_ysat := h _ h1
  have e2 : r.temporal.s2_y = r'.temporal.s2_y := h _ h2
  have key : ∀ k, Agree s { r with index_u_ysat := some k } { r' with index_u_ysat := some k } := by
    intro k i hi
    have := h i hi
    cases i <;> first | exact this | rfl
  unfold indexUysat
  rw [← e1, ← e2]
  cases r.index_u_ysat with
  | none =>
    simp only
    cases satLoop r.temporal.s2_y r.temporal.s2_y.length (.fin 0) 0 with
    | error e => exact ⟨rfl, h⟩
    | ok k => exact ⟨rfl, key k⟩
  | some i =>
    simp only
    split
    · exact ⟨rfl, h⟩
    · cases satLoop r.temporal.s2_y r.temporal.s2_y.length (.fin 0) 0 with
      | error e => exact ⟨rfl, h⟩
      | ok k => exact ⟨rfl, key k⟩

/-- membership in the lists of the specification -/
macro "inl" : tactic => `(tactic| first | assumption | (simp [gainIn, respIn, qeIn, rangeIn, satIn]; done))

theorem frame_signal {s : List Inp} (h1 : .u_y ∈ s) (h2 : .u_ydark ∈ s) : Frame s (signal : M F _) signal :=
  Frame.ask_bind _ fun r r' h => by
    have e1 : r.temporal.u_y = r'.temporal.u_y := h _ h1
    have e2 : r.temporal.u_ydark = r'.temporal.u_ydark := h _ h2
    rw [e1, e2]
    exact Frame.lift _ _

theorem frame_photons {s : List Inp} (h1 : .u_p ∈ s) : Frame s (photons : M F _) photons :=
  Frame.ask _ fun r r' h => by
    have e1 : r.temporal.u_p = r'.temporal.u_p := h _ h1
    rw [e1]

theorem frame_few {s : List Inp} (h1 : .texp ∈ s) : Frame s (fewExposures : M F _) fewExposures :=
  Frame.ask _ fun r r' h => by
    have e1 : r.temporal.texp = r'.temporal.texp := h _ h1
    rw [e1]

theorem frame_area {s : List Inp} (h1 : .area ∈ s) : Frame s (ask Res.pixel_area : M F _) (ask Res.pixel_area) :=
  Frame.ask _ fun _ _ h => h _ h1

theorem frame_spat {s : List Inp} (d : Bool) (h1 : (bif d then .dark else .bright) ∈ s) :
    Frame s (spat d : M F _) (spat d) :=
  Frame.ask _ fun r r' h => by
    cases d
    · exact h _ h1
    · exact h _ h1

/-- one step of the proof that a computation uses listed data only -/
macro "fr1" : tactic => `(tactic| (first
        | assumption
        | exact Frame.pure _ _
        | exact Frame.lift _ _
        | exact frame_signal (by inl) (by inl)
        | exact frame_photons (by inl)
        | exact frame_few (by inl)
        | exact frame_area (by inl)
        | exact frame_index (by inl) (by inl)
        | exact frame_spat _ (by inl)
        | (refine Frame.bind ?_ (fun _ => ?_))
        | (refine Frame.ite ?_ ?_)))
macro "fr" : tactic => `(tactic| repeat' fr1)

section
variable {s : List Inp} (q : LSQ F)

theorem frame_lastBelow (c : F) (h : rangeIn ⊆ s) : Frame s (lastBelow c) (lastBelow c) := by
  have h1 := h (show .u_y ∈ _ by inl); have h2 := h (show .u_ydark ∈ _ by inl)
  have h3 := h (show .s2_y ∈ _ by inl); have h4 := h (show .index ∈ _ by inl)
  unfold lastBelow; fr

theorem frame_smax (h : rangeIn ⊆ s) : Frame s (indexSensitivityMax : M F _) indexSensitivityMax :=
  frame_lastBelow _ h

theorem frame_linMax (h : rangeIn ⊆ s) : Frame s (indexLinearityMax : M F _) indexLinearityMax :=
  frame_lastBelow _ h

theorem frame_linMin (h : rangeIn ⊆ s) : Frame s (indexLinearityMin : M F _) indexLinearityMin := by
  have h1 := h (show .u_y ∈ _ by inl); have h2 := h (show .u_ydark ∈ _ by inl)
  have h3 := h (show .s2_y ∈ _ by inl); have h4 := h (show .index ∈ _ by inl)
  unfold indexLinearityMin; fr

theorem frame_R (h : respIn ⊆ s) : Frame s (R q) (R q) := by
  have h0 := h (show .u_p ∈ _ by inl)
  have h1 := h (show .u_y ∈ _ by inl); have h2 := h (show .u_ydark ∈ _ by inl)
  have h5 : Frame s (indexSensitivityMax : M F _) _ := frame_smax fun i hi => h (List.mem_cons_of_mem _ hi)
  have h6 : Frame s (indexSensitivityMin : M F _) _ := Frame.pure _ _
  unfold R; fr

theorem frame_K (h : gainIn ⊆ s) : Frame s (K q) (K q) := by
  have h1 := h (show .u_y ∈ _ by inl); have h2 := h (show .u_ydark ∈ _ by inl)
  have h5 : Frame s (indexSensitivityMax : M F _) _ := frame_smax fun i hi => h (List.mem_cons_of_mem _ hi)
  have h6 : Frame s (indexSensitivityMin : M F _) _ := Frame.pure _ _
  unfold K
  refine Frame.bind (frame_signal h1 h2) fun _ => Frame.ask_bind _ fun r r' hr => ?_
  have e1 : r.temporal.s2_y = r'.temporal.s2_y := hr .s2_y (h (by inl))
  have e2 : r.temporal.s2_ydark = r'.temporal.s2_ydark := hr .s2_ydark (h (by inl))
  rw [e1, e2]
  fr

theorem qe_resp : respIn ⊆ qeIn := by
  intro i hi; revert hi; simp only [respIn, qeIn, gainIn, List.mem_cons]; tauto
theorem qe_gain : gainIn ⊆ qeIn := fun _ hi => List.mem_cons_of_mem _ hi

theorem frame_QE (h : qeIn ⊆ s) : Frame s (QE q) (QE q) := by
  have h1 := frame_R q (fun i hi => h (qe_resp hi))
  have h2 := frame_K q (fun i hi => h (qe_gain hi))
  unfold QE; fr

theorem frame_rawDark (h1 : .texp ∈ s) (h2 : .s2_ydark ∈ s) : Frame s (rawDark q) (rawDark q) := by
  unfold rawDark
  refine Frame.bind (frame_few h1) fun _ => Frame.ask_bind _ fun r r' hr => ?_
  have e1 : r.temporal.texp = r'.temporal.texp := hr _ h1
  have e2 : r.temporal.s2_ydark = r'.temporal.s2_ydark := hr _ h2
  rw [e1, e2]
  fr

theorem frame_s2YDark (h1 : .texp ∈ s) (h2 : .s2_ydark ∈ s) : Frame s (s2YDark q) (s2YDark q) := by
  have := frame_rawDark q h1 h2
  unfold s2YDark; fr

theorem frame_uPSat (h0 : .u_p ∈ s) (h1 : .index ∈ s) (h2 : .s2_y ∈ s) : Frame s (uPSat : M F _) uPSat := by
  unfold uPSat
  refine Frame.ask_bind _ fun r r' hr => ?_
  have e1 : r.temporal.u_p = r'.temporal.u_p := hr _ h0
  rw [e1]
  fr

theorem frame_uESat (h : qeIn ⊆ s) : Frame s (uESat q) (uESat q) := by
  have h1 := frame_QE q h
  have h2 : Frame s (uPSat : M F _) _ := frame_uPSat (h (by inl)) (h (by inl)) (h (by inl))
  unfold uESat; fr

theorem frame_perArea {x : M F (Fl F)} (h : .area ∈ s) (hx : Frame s x x) : Frame s (perArea x) (perArea x) := by
  unfold perArea
  refine Frame.bind (frame_area h) fun a => ?_
  cases a <;> simp only <;> fr

theorem frame_linearity (h : respIn ⊆ s) : Frame s (linearity : M F _) linearity := by
  have h' : rangeIn ⊆ s := fun i hi => h (List.mem_cons_of_mem _ hi)
  have h0 := h (show .u_p ∈ _ by inl)
  have h1 := h (show .u_y ∈ _ by inl); have h2 := h (show .u_ydark ∈ _ by inl)
  have h5 : Frame s (indexLinearityMax : M F _) _ := frame_linMax h'
  have h6 : Frame s (indexLinearityMin : M F _) _ := frame_linMin h'
  unfold linearity; fr

theorem frame_uIVarDN (h1 : .texp ∈ s) (h2 : gainIn ⊆ s) : Frame s (uIVarDN q) (uIVarDN q) := by
  have hk := frame_K q h2
  unfold uIVarDN
  refine Frame.bind (frame_few h1) fun _ => Frame.ite (Frame.pure _ _) (Frame.ask_bind _ fun r r' hr => ?_)
  have e1 : r.temporal.texp = r'.temporal.texp := hr _ h1
  have e2 : r.temporal.s2_ydark = r'.temporal.s2_ydark := hr .s2_ydark (h2 (by inl))
  rw [e1, e2]
  fr

theorem frame_uIMeanDN (h1 : .texp ∈ s) (h2 : .u_ydark ∈ s) : Frame s (uIMeanDN q) (uIMeanDN q) := by
  unfold uIMeanDN
  refine Frame.bind (frame_few h1) fun _ => Frame.ite (Frame.pure _ _) (Frame.ask_bind _ fun r r' hr => ?_)
  have e1 : r.temporal.texp = r'.temporal.texp := hr _ h1
  have e2 : r.temporal.u_ydark = r'.temporal.u_ydark := hr _ h2
  rw [e1, e2]
  fr

theorem frame_overK {x : M F (PyNum F)} (h : gainIn ⊆ s) (hx : Frame s x x) : Frame s (overK q x) (overK q x) := by
  have hk := frame_K q h
  unfold overK
  refine Frame.bind hx fun a => ?_
  cases a <;> simp only <;> fr

/-- the averaged images used -/
abbrev imgOf (d : Bool) : Inp := bif d then .dark else .bright

variable {d : Bool} (h : imgOf d ∈ s)
include h

theorem frame_stack : Frame s (sigma2YStack d : M F _) (sigma2YStack d) := by
  unfold sigma2YStack; exact Frame.bind (frame_spat d h) fun _ => Frame.pure _ _
theorem frame_measured : Frame s (s2YMeasured d : M F _) (s2YMeasured d) := by
  unfold s2YMeasured; exact Frame.bind (frame_spat d h) fun _ => Frame.pure _ _
theorem frame_cav : Frame s (s2YCav d : M F _) (s2YCav d) := by
  unfold s2YCav; exact Frame.bind (frame_spat d h) fun _ => Frame.pure _ _
theorem frame_rav : Frame s (s2YRav d : M F _) (s2YRav d) := by
  unfold s2YRav; exact Frame.bind (frame_spat d h) fun _ => Frame.pure _ _
theorem frame_s2Y : Frame s (s2Y d : M F _) (s2Y d) := by
  have h0 : Frame s (spat d : M F _) _ := frame_spat d h
  have h1 : Frame s (s2YMeasured d : M F _) _ := frame_measured h
  have h2 : Frame s (sigma2YStack d : M F _) _ := frame_stack h
  unfold s2Y; fr
theorem frame_col : Frame s (s2YCol d : M F _) (s2YCol d) := by
  have h0 : Frame s (spat d : M F _) _ := frame_spat d h
  have h1 : Frame s (s2Y d : M F _) _ := frame_s2Y h
  have h2 : Frame s (s2YCav d : M F _) _ := frame_cav h
  have h3 : Frame s (s2YRav d : M F _) _ := frame_rav h
  unfold s2YCol; fr
theorem frame_row : Frame s (s2YRow d : M F _) (s2YRow d) := by
  have h0 : Frame s (spat d : M F _) _ := frame_spat d h
  have h1 : Frame s (s2Y d : M F _) _ := frame_s2Y h
  have h2 : Frame s (s2YCav d : M F _) _ := frame_cav h
  have h3 : Frame s (s2YRav d : M F _) _ := frame_rav h
  unfold s2YRow; fr
theorem frame_pixel : Frame s (s2YPixel d : M F _) (s2YPixel d) := by
  have h0 : Frame s (spat d : M F _) _ := frame_spat d h
  have h1 : Frame s (s2Y d : M F _) _ := frame_s2Y h
  have h2 : Frame s (s2YCav d : M F _) _ := frame_cav h
  have h3 : Frame s (s2YRav d : M F _) _ := frame_rav h
  unfold s2YPixel; fr

end

section
variable {s : List Inp} (q : LSQ ℝ)

theorem frame_sigmaYDark (h1 : .texp ∈ s) (h2 : .s2_ydark ∈ s) : Frame s (sigmaYDark q) (sigmaYDark q) := by
  have := frame_s2YDark q h1 h2
  unfold sigmaYDark; fr
theorem frame_sigmaD (h1 : .texp ∈ s) (h2 : gainIn ⊆ s) : Frame s (sigmaD q) (sigmaD q) := by
  have := frame_sigmaYDark q h1 (h2 (by inl)); have := frame_K q h2
  unfold sigmaD; fr
theorem frame_uPMin (h1 : .texp ∈ s) (h2 : qeIn ⊆ s) : Frame s (uPMin q) (uPMin q) := by
  have := frame_sigmaYDark q h1 (h2 (by inl)); have := frame_K q fun i hi => h2 (qe_gain hi)
  have := frame_QE q h2
  unfold uPMin; fr
theorem frame_uEMin (h1 : .texp ∈ s) (h2 : qeIn ⊆ s) : Frame s (uEMin q) (uEMin q) := by
  have := frame_uPMin q h1 h2
  have := frame_QE q h2
  unfold uEMin; fr
theorem frame_SNRMax (h : qeIn ⊆ s) : Frame s (SNRMax q) (SNRMax q) := by
  have := frame_uESat q h
  unfold SNRMax; fr
theorem frame_DR (h1 : .texp ∈ s) (h : qeIn ⊆ s) : Frame s (DR q) (DR q) := by
  have := frame_uPMin q h1 h
  have h2 : Frame s (uPSat : M ℝ _) _ := frame_uPSat (h (by inl)) (h (by inl)) (h (by inl))
  unfold DR; fr
theorem frame_dsnu {x : M ℝ (Fl ℝ)} (h : gainIn ⊆ s) (hx : Frame s x x) : Frame s (dsnu q x) (dsnu q x) := by
  have := frame_K q h
  unfold dsnu; fr
theorem frame_prnu {x : Bool → M ℝ (Fl ℝ)} (hx : ∀ d, Frame s (x d) (x d)) (h1 : .bright ∈ s) (h2 : .dark ∈ s) :
    Frame s (prnu x) (prnu x) := by
  have a1 := hx true; have a2 := hx false
  have b1 : Frame s (spat true : M ℝ _) _ := frame_spat true h2
  have b2 : Frame s (spat false : M ℝ _) _ := frame_spat false h1
  unfold prnu; fr

variable {F : Type} [Field F] [LinearOrder F]
theorem frame_sumDiff (h1 : .bright ∈ s) (h2 : .dark ∈ s) : Frame s (sumDiff : M F _) sumDiff := by
  have b1 : Frame s (spat true : M F _) _ := frame_spat true h2
  have b2 : Frame s (spat false : M F _) _ := frame_spat false h1
  unfold sumDiff; fr
theorem frame_sumDark (h2 : .dark ∈ s) : Frame s (sumDark : M F _) sumDark := by
  have b1 : Frame s (spat true : M F _) _ := frame_spat true h2
  unfold sumDark; fr

theorem frame_as {x : M F α} (hx : Frame s x x) (f : α → Value) : Frame s (x.as f) (x.as f) :=
  Frame.bind hx fun _ => Frame.pure _ _

end

theorem frame_read (q : LSQ ℝ) (a : Attr) : Frame (needs a) (Results.read q a) (Results.read q a) := by
  have sub : ∀ (i : Inp) (l : List Inp), l ⊆ i :: l := fun i l => List.subset_cons_self i l
  have sub2 : ∀ (i j : Inp) (l : List Inp), l ⊆ i :: j :: l :=
    fun i j l => List.subset_cons_of_subset _ (List.subset_cons_self j l)
  have d1 : ∀ {s : List Inp}, Inp.dark ∈ s → imgOf true ∈ s := fun h => h
  have b1 : ∀ {s : List Inp}, Inp.bright ∈ s → imgOf false ∈ s := fun h => h
  have m0 : ∀ (i : Inp) (l : List Inp), i ∈ i :: l := fun i l => List.mem_cons_self ..
  have both : ∀ d, imgOf d ∈ [Inp.bright, Inp.dark] := fun d => by cases d <;> simp [imgOf]
  cases a
  case s2q => exact Frame.pure _ _
  case index_start => exact frame_as (Frame.pure _ _) _
  case index_u_ysat => exact frame_as (frame_index (by simp [needs, satIn]) (by simp [needs, satIn])) _
  case index_sensitivity_max => exact frame_as (frame_smax (List.Subset.refl _)) _
  case index_sensitivity_min => exact frame_as (Frame.pure _ _) _
  case R => exact frame_as (frame_R q (List.Subset.refl _)) _
  case K => exact frame_as (frame_K q (List.Subset.refl _)) _
  case inverse_K => exact frame_as (Frame.bind (frame_K q (List.Subset.refl _)) fun _ => Frame.pure _ _) _
  case QE => exact frame_as (frame_QE q (List.Subset.refl _)) _
  case sigma_y_dark => exact frame_as (frame_sigmaYDark q (by simp [needs]) (by simp [needs])) _
  case sigma_d => exact frame_as (frame_sigmaD q (m0 _ _) (sub _ _)) _
  case u_p_min => exact frame_as (frame_uPMin q (m0 _ _) (sub _ _)) _
  case u_p_min_area => exact frame_as (frame_perArea (m0 _ _) (frame_uPMin q (by simp [needs]) (sub2 _ _ _))) _
  case u_e_min => exact frame_as (frame_uEMin q (m0 _ _) (sub _ _)) _
  case u_e_min_area => exact frame_as (frame_perArea (m0 _ _) (frame_uEMin q (by simp [needs]) (sub2 _ _ _))) _
  case u_p_sat => exact frame_as (frame_uPSat (m0 _ _) (by simp [needs, satIn]) (by simp [needs, satIn])) _
  case u_p_sat_area =>
    exact frame_as (frame_perArea (m0 _ _) (frame_uPSat (by simp [needs]) (by simp [needs, satIn])
      (by simp [needs, satIn]))) _
  case u_e_sat => exact frame_as (frame_uESat q (List.Subset.refl _)) _
  case u_e_sat_area => exact frame_as (frame_perArea (m0 _ _) (frame_uESat q (sub _ _))) _
  case SNR_max => exact frame_as (frame_SNRMax q (List.Subset.refl _)) _
  case SNR_max_dB => exact frame_as (Frame.bind (frame_SNRMax q (List.Subset.refl _)) fun _ => Frame.pure _ _) _
  case SNR_max_bit => exact frame_as (Frame.bind (frame_SNRMax q (List.Subset.refl _)) fun _ => Frame.pure _ _) _
  case inverse_SNR_max => exact frame_as (Frame.bind (frame_SNRMax q (List.Subset.refl _)) fun _ => Frame.pure _ _) _
  case DR => exact frame_as (frame_DR q (m0 _ _) (sub _ _)) _
  case DR_dB => exact frame_as (Frame.bind (frame_DR q (m0 _ _) (sub _ _)) fun _ => Frame.pure _ _) _
  case index_linearity_min => exact frame_as (frame_linMin (List.Subset.refl _)) _
  case index_linearity_max => exact frame_as (frame_linMax (List.Subset.refl _)) _
  case linearity => exact frame_as (frame_linearity (List.Subset.refl _)) _
  case LE_min => exact frame_as (Frame.bind (frame_linearity (List.Subset.refl _)) fun _ => Frame.pure _ _) _
  case LE_max => exact frame_as (Frame.bind (frame_linearity (List.Subset.refl _)) fun _ => Frame.pure _ _) _
  case u_I_var_DN => exact frame_as (frame_uIVarDN q (m0 _ _) (sub _ _)) _
  case u_I_var => exact frame_as (frame_overK q (sub _ _) (frame_uIVarDN q (m0 _ _) (sub _ _))) _
  case u_I_mean_DN => exact frame_as (frame_uIMeanDN q (by simp [needs]) (by simp [needs])) _
  case u_I_mean =>
    exact frame_as (frame_overK q (sub _ _) (frame_uIMeanDN q (m0 _ _) (by simp [needs, gainIn, rangeIn]))) _
  case sigma_2_y_stack => exact frame_as (frame_stack (b1 (m0 _ _))) _
  case sigma_2_y_stack_dark => exact frame_as (frame_stack (d1 (m0 _ _))) _
  case s_2_y_measured => exact frame_as (frame_measured (b1 (m0 _ _))) _
  case s_2_y_measured_dark => exact frame_as (frame_measured (d1 (m0 _ _))) _
  case s_2_y => exact frame_as (frame_s2Y (b1 (m0 _ _))) _
  case s_2_y_dark => exact frame_as (frame_s2Y (d1 (m0 _ _))) _
  case s_2_y_cav => exact frame_as (frame_cav (b1 (m0 _ _))) _
  case s_2_y_cav_dark => exact frame_as (frame_cav (d1 (m0 _ _))) _
  case s_2_y_rav => exact frame_as (frame_rav (b1 (m0 _ _))) _
  case s_2_y_rav_dark => exact frame_as (frame_rav (d1 (m0 _ _))) _
  case s_2_y_col => exact frame_as (frame_col (b1 (m0 _ _))) _
  case s_2_y_col_dark => exact frame_as (frame_col (d1 (m0 _ _))) _
  case s_2_y_row => exact frame_as (frame_row (b1 (m0 _ _))) _
  case s_2_y_row_dark => exact frame_as (frame_row (d1 (m0 _ _))) _
  case s_2_y_pixel => exact frame_as (frame_pixel (b1 (m0 _ _))) _
  case s_2_y_pixel_dark => exact frame_as (frame_pixel (d1 (m0 _ _))) _
  case DSNU1288 => exact frame_as (frame_dsnu q (sub _ _) (frame_s2Y (d1 (m0 _ _)))) _
  case DSNU1288_DN =>
    have h : Frame [Inp.dark] (s2Y true : M ℝ _) _ := frame_s2Y (d1 (m0 _ _))
    refine frame_as (s := [Inp.dark]) ?_ _
    unfold DSNU1288DN; fr
  case DSNU1288_row => exact frame_as (frame_dsnu q (sub _ _) (frame_row (d1 (m0 _ _)))) _
  case DSNU1288_col => exact frame_as (frame_dsnu q (sub _ _) (frame_col (d1 (m0 _ _)))) _
  case DSNU1288_pixel => exact frame_as (frame_dsnu q (sub _ _) (frame_pixel (d1 (m0 _ _)))) _
  case PRNU1288 => exact frame_as (frame_prnu (fun d => frame_s2Y (both d)) (both false) (both true)) _
  case PRNU1288_row => exact frame_as (frame_prnu (fun d => frame_row (both d)) (both false) (both true)) _
  case PRNU1288_col => exact frame_as (frame_prnu (fun d => frame_col (both d)) (both false) (both true)) _
  case PRNU1288_pixel => exact frame_as (frame_prnu (fun d => frame_pixel (both d)) (both false) (both true)) _
  case histogram_PRNU =>
    have h : Frame [Inp.bright, Inp.dark] (sumDiff : M ℝ _) _ := frame_sumDiff (both false) (both true)
    have h' : Frame [Inp.bright, Inp.dark] (spat false : M ℝ _) _ := frame_spat false (both false)
    refine frame_as (s := [Inp.bright, Inp.dark]) ?_ _
    unfold histogramPRNU; fr
  case histogram_PRNU_accumulated =>
    have h : Frame [Inp.bright, Inp.dark] (sumDiff : M ℝ _) _ := frame_sumDiff (both false) (both true)
    have h' : Frame [Inp.bright, Inp.dark] (spat false : M ℝ _) _ := frame_spat false (both false)
    refine frame_as (s := [Inp.bright, Inp.dark]) ?_ _
    unfold histogramPRNUAccumulated; fr
  case histogram_DSNU =>
    have h : Frame [Inp.dark] (sumDark : M ℝ _) _ := frame_sumDark (d1 (m0 _ _))
    have h' : Frame [Inp.dark] (spat true : M ℝ _) _ := frame_spat true (d1 (m0 _ _))
    refine frame_as (s := [Inp.dark]) ?_ _
    unfold histogramDSNU; fr
  case histogram_DSNU_accumulated =>
    have h : Frame [Inp.dark] (sumDark : M ℝ _) _ := frame_sumDark (d1 (m0 _ _))
    have h' : Frame [Inp.dark] (spat true : M ℝ _) _ := frame_spat true (d1 (m0 _ _))
    refine frame_as (s := [Inp.dark]) ?_ _
    unfold histogramDSNUAccumulated; fr

end Results

/-- C79: a result has the same value (or raises the same exception) on any two objects that agree in the
data listed for it, whatever was read from them before. -/
theorem C79_depends (q : LSQ ℝ) (a : Attr) (r r' : Res ℝ) (h : Agree (needs a) r r') (before before' : List Attr) :
    val (Results.read q a) (readAll q before r) = val (Results.read q a) (readAll q before' r') := by
  unfold val
  rw [(C24_reads_have_no_effect q before a r).1, (C24_reads_have_no_effect q before' a r').1]
  exact (Results.frame_read q a).mk h

namespace Pipeline
open Parser Loader Py
variable {F : Type} [Field F] [LinearOrder F]

theorem evaluate_ok {wr : ℤ → ℤ} {fload : Str → Option (Except PyErr Img)} {path : Str} {ord : List F → List F}
    {images : Kind → Images F} {px : Option ℕ} {area : Option F} {idx : Option ℤ} {r : Res F}
    (h : evaluate wr fload path ord images px area idx = .ok r) :
    ∃ l D, load wr fload path 0 ord images = .ok l ∧ Data.make l px = .ok D ∧
      r = ⟨D.temporal, D.spatial, area, idx⟩ := by
  unfold evaluate at h
  cases hl : (load wr fload path 0 ord images : Except PyErr (Loaded F F)) with
  | error e => rw [hl] at h; cases h
  | ok l =>
    rw [hl] at h
    have h : (Data.make l px >>= fun dat => Except.ok (Results.make dat area idx)) = .ok r := h
    cases hD : Data.make l px with
    | error e => rw [hD] at h; cases h
    | ok D =>
      rw [hD] at h
      have h : Except.ok (Results.make D area idx) = Except.ok r := h
      exact ⟨l, D, rfl, hD, (Except.ok.inj h).symm⟩

variable {V : Type}

/-- what is loaded does not depend on the shapes seen before -/
theorem loadImgs_fst (fload : Str → Option (Except PyErr Img)) (path : Str) : ∀ (fs : List Str)
    (sh sh' : List (ℕ × ℕ)) x x', loadImgs fload path fs sh = .ok x → loadImgs fload path fs sh' = .ok x' →
    x.1 = x'.1 := by
  intro fs
  induction fs with
  | nil => intro sh sh' x x' h h'; rw [loadImgs] at h h'; cases h; cases h'; rfl
  | cons f fs ih =>
    intro sh sh' x x' h h'
    rw [loadImgs] at h h'
    cases hf : fload (join1 path f) with
    | none => rw [hf] at h; cases h
    | some v =>
      cases v with
      | error e => rw [hf] at h; cases h
      | ok img =>
        rw [hf] at h h'
        simp only at h h'
        split at h
        · cases h
        split at h'
        · cases h'
        cases h1 : loadImgs fload path fs (addShape sh img.shape) with
        | error e => rw [h1] at h; cases h
        | ok y =>
          cases h2 : loadImgs fload path fs (addShape sh' img.shape) with
          | error e => rw [h2] at h'; cases h'
          | ok y' =>
            rw [h1] at h; rw [h2] at h'
            have := ih _ _ _ _ h1 h2
            obtain ⟨y1, y2⟩ := y
            obtain ⟨y1', y2'⟩ := y'
            cases h; cases h'
            simp only at this ⊢
            rw [this]

theorem loadPhotons_fst (fload : Str → Option (Except PyErr Img)) (path : Str) (red : List Img → V) (e : F) :
    ∀ (ps : List (F × List Str)) (d : KindData F V) (sh sh' : List (ℕ × ℕ)) x x',
    loadPhotons fload path red e ps (d, sh) = .ok x → loadPhotons fload path red e ps (d, sh') = .ok x' →
    x.1 = x'.1 := by
  intro ps
  induction ps with
  | nil => intro d sh sh' x x' h h'; rw [loadPhotons] at h h'; cases h; cases h'; rfl
  | cons p ps ih =>
    intro d sh sh' x x' h h'
    obtain ⟨p, fs⟩ := p
    rw [loadPhotons] at h h'
    cases h1 : loadImgs fload path fs sh with
    | error e => rw [h1] at h; cases h
    | ok y =>
      cases h2 : loadImgs fload path fs sh' with
      | error e => rw [h2] at h'; cases h'
      | ok y' =>
        rw [h1] at h; rw [h2] at h'
        have := loadImgs_fst fload path fs _ _ _ _ h1 h2
        obtain ⟨y1, y2⟩ := y
        obtain ⟨y1', y2'⟩ := y'
        simp only at this h h'
        subst this
        exact ih _ _ _ _ _ h h'

theorem loadExposures_fst (fload : Str → Option (Except PyErr Img)) (path : Str) (red : List Img → V) (z : F)
    (images : Images F) : ∀ (es : List F) (d : KindData F V) (sh sh' : List (ℕ × ℕ)) x x',
    loadExposures fload path red z images es (d, sh) = .ok x →
    loadExposures fload path red z images es (d, sh') = .ok x' → x.1 = x'.1 := by
  intro es
  induction es with
  | nil => intro d sh sh' x x' h h'; rw [loadExposures] at h h'; cases h; cases h'; rfl
  | cons e es ih =>
    intro d sh sh' x x' h h'
    rw [loadExposures] at h h'
    cases hi : Dict.get? images e with
    | none => rw [hi] at h; cases h
    | some inner =>
      rw [hi] at h h'
      simp only at h h'
      split at h
      · cases h
      rename_i hz
      rw [if_neg hz] at h'
      split at h
      · cases h
      rename_i hz
      rw [if_neg hz] at h'
      cases h1 : loadPhotons fload path red e inner (d, sh) with
      | error e => rw [h1] at h; cases h
      | ok y =>
        cases h2 : loadPhotons fload path red e inner (d, sh') with
        | error e => rw [h2] at h'; cases h'
        | ok y' =>
          rw [h1] at h; rw [h2] at h'
          have := loadPhotons_fst fload path red e inner _ _ _ _ _ h1 h2
          obtain ⟨y1, y2⟩ := y
          obtain ⟨y1', y2'⟩ := y'
          simp only at this h h'
          subst this
          exact ih _ _ _ _ _ h h'

theorem load_temporal {wr : ℤ → ℤ} {fload : Str → Option (Except PyErr Img)} {path : Str} {ord : List F → List F}
    {images images' : Kind → Images F} {l l' : Loaded F F} (h : load wr fload path 0 ord images = .ok l)
    (h' : load wr fload path 0 ord images' = .ok l') :
    (images .temporal = images' .temporal → l.temporal = l'.temporal) ∧
    (images .spatial = images' .spatial → l.spatial = l'.spatial) := by
  unfold load at h h'
  split at h
  · cases h
  rename_i t sh ht
  split at h'
  · cases h'
  rename_i t' sh' ht'
  split at h
  · cases h
  rename_i s sh1 hs
  split at h'
  · cases h'
  rename_i s' sh1' hs'
  split at h
  · cases h
  split at h'
  · cases h'
  cases h
  cases h'
  constructor
  · intro he
    rw [he] at ht
    exact loadExposures_fst _ _ _ _ _ _ _ _ _ _ _ ht ht'
  · intro he
    rw [he] at hs
    exact loadExposures_fst _ _ _ _ _ _ _ _ _ _ _ hs hs'

end Pipeline

section
open Parser Loader Pipeline

/-- the kind of images a piece of data is computed from, if any -/
def Spec.Inp.kind : Spec.Inp → Option Kind
  | .texp | .u_p | .u_y | .s2_y | .u_ydark | .s2_ydark => some .temporal
  | .dark | .bright => some .spatial
  | .area | .index => none

/-- C79: an evaluation of the same images with other values of the optional arguments, or of other images of
one kind, changes only the results that are computed from them.  The pixel count and the saturation index
concern the temporal data, the pixel area the four figures per area. -/
theorem C79_evaluate (q : LSQ ℝ) (wr : ℤ → ℤ) (fload : Str → Option (Except PyErr Img)) (path : Str)
    (ord : List ℝ → List ℝ) (hord : ∀ l, (ord l).Perm l) (images images' : Kind → Images ℝ)
    (hw : ∀ k, WF2 (images k)) (hw' : ∀ k, WF2 (images' k)) (px px' : Option ℕ) (area area' : Option ℝ)
    (idx idx' : Option ℤ) (r r' : Res ℝ)
    (h : evaluate wr fload path ord images px area idx = .ok r)
    (h' : evaluate wr fload path ord images' px' area' idx' = .ok r') (a : Attr)
    (htemp : (∃ i ∈ needs a, i.kind = some .temporal) →
      images .temporal = images' .temporal ∧ px = px' ∧ ∃ e p fs f, get2 (images .temporal) e p = some fs ∧ f ∈ fs)
    (hspat : (∃ i ∈ needs a, i.kind = some .spatial) →
      images .spatial = images' .spatial ∧ ∃ e p fs f, get2 (images .spatial) e p = some fs ∧ f ∈ fs)
    (harea : .area ∈ needs a → area = area') (hidx : .index ∈ needs a → idx = idx') :
    val (Results.read q a) r = val (Results.read q a) r' := by
  obtain ⟨l, D, hl, hD, rfl⟩ := evaluate_ok h
  obtain ⟨l', D', hl', hD', rfl⟩ := evaluate_ok h'
  refine (Results.frame_read q a).mk ?_
  have size : ∀ k, images k = images' k → (∃ e p fs f, get2 (images k) e p = some fs ∧ f ∈ fs) →
      l.height = l'.height ∧ l.width = l'.width := by
    rintro k hk ⟨e, p, fs, f, hg, hf⟩
    obtain ⟨-, -, -, -, c, -⟩ := C15_content wr fload path 0 ord hord images hw l hl
    obtain ⟨-, -, -, -, c', -⟩ := C15_content wr fload path 0 ord hord images' hw' l' hl'
    have hL := (C15_acceptance (F := ℝ) wr fload path 0 ord hord images hw).1 ⟨l, hl⟩
    have n1 : Named images f := ⟨k, e, p, fs, hg, hf⟩
    obtain ⟨img, hi⟩ := hL.readable f n1
    have hi : imageAt fload path f = some img := by unfold imageAt; rw [hi]
    have h1 := c f img n1 hi
    have h2 := c' f img ⟨k, e, p, fs, hk ▸ hg, hf⟩ hi
    exact ⟨h1.1.symm.trans h2.1, h1.2.symm.trans h2.2⟩
  obtain ⟨lt, ls⟩ := load_temporal hl hl'
  have tem : (∃ i ∈ needs a, i.kind = some .temporal) → D.temporal = D'.temporal := by
    intro hi
    obtain ⟨e1, rfl, e3⟩ := htemp hi
    obtain ⟨s1, s2⟩ := size _ e1 e3
    have hp : pixelsOf l px = pixelsOf l' px := by
      unfold pixelsOf; rw [s1, s2]
    have := lt e1
    unfold Data.make at hD hD'
    simp only at hD hD'
    rw [← hp, ← this] at hD'
    split at hD
    · cases hD
    rename_i t ht
    split at hD
    · cases hD
    rw [ht] at hD'
    simp only at hD'
    split at hD'
    · cases hD'
    cases hD; cases hD'; rfl
  have spa : (∃ i ∈ needs a, i.kind = some .spatial) → D.spatial = D'.spatial := by
    intro hi
    obtain ⟨e1, e3⟩ := hspat hi
    obtain ⟨s1, s2⟩ := size _ e1 e3
    have := ls e1
    unfold Data.make at hD hD'
    simp only at hD hD'
    rw [← s1, ← s2, ← this] at hD'
    split at hD
    · cases hD
    split at hD
    · cases hD
    rename_i s hs
    rw [hs] at hD'
    split at hD'
    · cases hD'
    cases hD; cases hD'; rfl
  intro i hi
  cases i
  case area => exact harea hi
  case index => exact hidx hi
  case dark => exact congrArg (·.dark) (spa ⟨_, hi, rfl⟩)
  case bright => exact congrArg (·.bright) (spa ⟨_, hi, rfl⟩)
  case texp => exact congrArg (·.texp) (tem ⟨_, hi, rfl⟩)
  case u_p => exact congrArg (·.u_p) (tem ⟨_, hi, rfl⟩)
  case u_y => exact congrArg (·.u_y) (tem ⟨_, hi, rfl⟩)
  case s2_y => exact congrArg (·.s2_y) (tem ⟨_, hi, rfl⟩)
  case u_ydark => exact congrArg (·.u_ydark) (tem ⟨_, hi, rfl⟩)
  case s2_ydark => exact congrArg (·.s2_ydark) (tem ⟨_, hi, rfl⟩)

/-- C79: the given pixel area and saturation index are the ones the results use, and the given number of
pixels the one the means and variances are taken over. -/
theorem C79_arguments {F : Type} [Field F] [LinearOrder F] [IsStrictOrderedRing F]
    (fload : Str → Option (Except PyErr Img)) (path : Str) (ord : List F → List F) (hord : ∀ l, (ord l).Perm l)
    (images : Kind → Images F) (hw : ∀ k, WF2 (images k)) (hn : NonNegPhotons (images .temporal))
    (n : ℕ) (hn0 : 0 < n) (area : Option F) (idx : Option ℤ) (r : Res F)
    (h : evaluate i64 fload path ord images (some n) area idx = .ok r) (hh ww : ℕ) (B : ℤ)
    (hpair : ∀ e p fs, get2 (images .temporal) e p = some fs →
      ∃ a b, imagesAt fload path fs = [a, b] ∧ PairOK hh ww B a b) :
    r.pixel_area = area ∧ r.index_u_ysat = idx ∧
    ∃ pts, Bright (images .temporal) pts ∧ r.temporal.u_p = pts.map (·.2.1) ∧
      r.temporal.u_y = pts.map (fun x => Spec.pairMeanOver n hh ww (imagesAt fload path x.2.2)) ∧
      r.temporal.s2_y = pts.map (fun x => Spec.pairVarOver n hh ww (imagesAt fload path x.2.2)) := by
  obtain ⟨l, D, hl, hD, rfl⟩ := evaluate_ok h
  have hsz : ∀ e p fs, get2 (images .temporal) e p = some fs → l.height = hh ∧ l.width = ww := by
    intro e p fs hg
    obtain ⟨a, b, hab, hok⟩ := hpair e p fs hg
    have ha : a ∈ imagesAt fload path fs := by rw [hab]; exact List.mem_cons_self ..
    obtain ⟨f, hf, hfa⟩ := List.mem_filterMap.1 ha
    obtain ⟨-, -, -, -, c, -⟩ := C15_content i64 fload path 0 ord hord images hw l hl
    obtain ⟨c1, c2⟩ := c f a ⟨.temporal, e, p, fs, hg, hf⟩ hfa
    exact ⟨c1.symm.trans hok.ah, c2.symm.trans hok.aw⟩
  obtain ⟨-, -, -, pts, h1, h2, h3, h4⟩ :=
    C17_measured_values_over fload path ord hord images hw hn l hl n hn0 D hD B fun e p fs hg => by
      obtain ⟨rfl, rfl⟩ := hsz e p fs hg
      exact hpair e p fs hg
  refine ⟨rfl, rfl, pts, h1, h2, h3.trans ?_, h4.trans ?_⟩ <;>
  · refine List.map_congr_left fun x hx => ?_
    obtain ⟨e, p, fs⟩ := x
    obtain ⟨rfl, rfl⟩ := hsz e p fs ((h1.mem e p fs).1 hx).2
    rfl

end

end Emva
