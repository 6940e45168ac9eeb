import Verif.Model.Points
import Verif.Props.C51_C52

/-!
C56: operation points.  C68: limits given for the operation points.
-/
set_option autoImplicit false
set_option linter.unusedSectionVars false
namespace Emva
open Cam Spec

namespace Cam
variable {F : Type} [Field F] [LinearOrder F] [IsStrictOrderedRing F] [FloorRing F] {ρ : Type}

/-- the state of the loop after the exposures with the numbers below `n` -/
def LoopInv (steps : ℕ) (rs : List ρ) (E : List F) (n : ℕ) (p : Points F ρ) : Prop :=
  Dict.WF p.temporal ∧
  (∀ t l, Dict.get? p.temporal t = some l → l = rs) ∧
  (∀ t, (Dict.get? p.temporal t).isSome ↔ ∃ i < n, E[i]? = some t) ∧
  (n ≤ steps / 2 → p.spatial = []) ∧
  (steps / 2 < n → ∃ t, E[steps / 2]? = some t ∧ p.spatial = [(t, rs)])

theorem loop_inv (steps : ℕ) (rs : List ρ) (E : List F) (hE : E.length = steps) :
    ∀ (rest : List F) (n : ℕ) (p : Points F ρ), E.drop n = rest → n ≤ steps → LoopInv steps rs E n p →
      LoopInv steps rs E steps (pointsLoop steps rs n rest p) := by
  intro rest
  induction rest with
  | nil =>
    intro n p hd hn h
    have : n = steps := by
      have := List.drop_eq_nil_iff.1 hd
      omega
    subst this
    exact h
  | cons x rest ih =>
    intro n p hd hn h
    have hlt : n < E.length := by
      by_contra hc
      rw [List.drop_eq_nil_iff.2 (not_lt.1 hc)] at hd
      cases hd
    have hx : E[n]? = some x := by
      have := List.getElem?_drop (xs := E) (i := n) (j := 0)
      rw [hd] at this
      simpa using this.symm
    have hd' : E.drop (n + 1) = rest := by
      rw [← List.drop_drop, hd]
      rfl
    refine ih (n + 1) _ hd' (by omega) ?_
    obtain ⟨h1, h2, h3, h4, h5⟩ := h
    refine ⟨Dict.WF.set h1 _ _, ?_, ?_, ?_, ?_⟩
    · intro t l hl
      rw [Dict.get?_set] at hl
      split_ifs at hl with he
      · exact (Option.some.inj hl).symm
      · exact h2 t l hl
    · intro t
      rw [Dict.get?_set]
      constructor
      · intro ht
        split_ifs at ht with he
        · exact ⟨n, by omega, by rw [hx, he]⟩
        · obtain ⟨i, hi, hi'⟩ := (h3 t).1 ht
          exact ⟨i, by omega, hi'⟩
      · rintro ⟨i, hi, hi'⟩
        split_ifs with he
        · rfl
        · rcases Nat.lt_succ_iff_lt_or_eq.1 hi with hi | rfl
          · exact (h3 t).2 ⟨i, hi, hi'⟩
          · rw [hx] at hi'
            exact absurd (Option.some.inj hi') he
    · intro hle
      have : isPointSpatial steps n = false := by
        unfold isPointSpatial
        simp only [decide_eq_false_iff_not]
        omega
      simp only [this, Bool.false_eq_true, if_false]
      exact h4 (by omega)
    · intro hlt'
      by_cases hm : n = steps / 2
      · have : isPointSpatial steps n = true := by
          unfold isPointSpatial
          simp only [decide_eq_true_eq]
          exact .inl hm
        refine ⟨x, by rw [← hm]; exact hx, ?_⟩
        simp only [this, if_true]
        rw [h4 (by omega)]
        rfl
      · have : isPointSpatial steps n = false := by
          unfold isPointSpatial
          simp only [decide_eq_false_iff_not]
          omega
        simp only [this, Bool.false_eq_true, if_false]
        exact h5 (by omega)

theorem linspace_length (a b : F) (n : ℕ) : (linspace a b n).length = n := by simp [linspace]

theorem exposures_length (a b : F) (n : ℕ) : (exposures a b n).length = n := by
  simp [exposures, linspace_length]

theorem linspace_formula (a b : F) (n i : ℕ) (h : i < n) :
    (linspace a b n)[i]? = some (a + i * ((b - a) / ((n : F) - 1))) := by
  by_cases hn : n = 1
  · subst hn
    have : i = 0 := by omega
    subst this
    simp [linspace]
  · rw [linspace_get a b n i h (by omega)]

theorem exposures_get (a b : F) (n i : ℕ) (h : i < n) :
    (exposures a b n)[i]? = some (round1 (a + i * ((b - a) / ((n : F) - 1)))) := by
  unfold exposures
  rw [List.getElem?_map, linspace_formula a b n i h]
  rfl

theorem exposurePoints_inv (emin emax : F) (steps : ℕ) (r d : ρ) :
    LoopInv steps [r, d] (exposures emin emax steps) steps (exposurePoints emin emax steps r d) := by
  refine loop_inv steps [r, d] _ (exposures_length _ _ _) _ 0 _ rfl (Nat.zero_le _) ?_
  refine ⟨Dict.wf_nil, ?_, ?_, fun _ => rfl, fun h => by omega⟩
  · intro t l h; cases h
  · intro t; simp

theorem round1_err (x : F) : |round1 x - x| ≤ 1 / 20 := by
  have := abs_le.1 (rint_err (x * 10))
  unfold round1
  rw [abs_le]
  constructor
  · linarith [this.1]
  · linarith [this.2]

theorem round1_mono {x y : F} (h : x ≤ y) : round1 x ≤ round1 y := by
  unfold round1
  have : rint (x * 10) ≤ rint (y * 10) := rint_mono (by linarith)
  have : ((rint (x * 10) : ℤ) : F) ≤ (rint (y * 10) : ℤ) := by exact_mod_cast this
  linarith

theorem round1_tenth (k : ℤ) : round1 ((k : F) / 10) = (k : F) / 10 := by
  unfold round1
  rw [div_mul_cancel₀ _ (by norm_num), rint_int]

theorem round1_lt {x y : F} (h : x + 1 / 10 < y) : round1 x < round1 y := by
  have hx := abs_le.1 (round1_err x)
  have hy := abs_le.1 (round1_err y)
  linarith [hx.2, hy.1]

end Cam

section
variable {F : Type} [Field F] [LinearOrder F] [IsStrictOrderedRing F] [FloorRing F] {ρ : Type}

/-- C56: exposure time variation.  The temporal exposures are the equally spaced ones, rounded to one
decimal; each has the bright radiance and the dark one.  There is exactly one spatial exposure, the
middle one, with the same radiances. -/
theorem C56_exposure (emin emax : F) (steps : ℕ) (bright dark : ρ) (hs : 1 ≤ steps) :
    let p := exposurePoints emin emax steps bright dark
    let E : ℕ → F := fun i => round1 (emin + i * ((emax - emin) / ((steps : F) - 1)))
    Dict.WF p.temporal ∧
    (∀ t, Dict.get? p.temporal t = some [bright, dark] ↔ ∃ i < steps, t = E i) ∧
    (∀ t l, Dict.get? p.temporal t = some l → l = [bright, dark]) ∧
    p.spatial = [(E (steps / 2), [bright, dark])] ∧
    Dict.get? p.temporal (E (steps / 2)) = some [bright, dark] := by
  intro p E
  obtain ⟨h1, h2, h3, -, h5⟩ := exposurePoints_inv emin emax steps bright dark
  have key : ∀ t, Dict.get? p.temporal t = some [bright, dark] ↔ ∃ i < steps, t = E i := by
    intro t
    constructor
    · intro h
      obtain ⟨i, hi, hi'⟩ := (h3 t).1 (by show (Dict.get? p.temporal t).isSome = true; rw [h]; rfl)
      rw [exposures_get _ _ _ _ hi] at hi'
      exact ⟨i, hi, (Option.some.inj hi').symm⟩
    · rintro ⟨i, hi, rfl⟩
      have := (h3 (E i)).2 ⟨i, hi, exposures_get _ _ _ _ hi⟩
      obtain ⟨l, hl⟩ := Option.isSome_iff_exists.1 this
      rw [show Dict.get? p.temporal (E i) = some l from hl, h2 _ l hl]
  have hm : steps / 2 < steps := by omega
  obtain ⟨t, ht, hsp⟩ := h5 hm
  rw [exposures_get _ _ _ _ hm] at ht
  refine ⟨h1, key, h2, ?_, (key _).2 ⟨_, hm, rfl⟩⟩
  rw [show p.spatial = _ from hsp, ← Option.some.inj ht]

/-- C56: there are as many temporal exposures as steps when neighbouring exposures differ by more than
0.1 ns (otherwise rounding may merge them). -/
theorem C56_distinct (emin emax : F) (steps : ℕ) (bright dark : ρ)
    (hd : 1 / 10 < (emax - emin) / ((steps : F) - 1)) :
    (exposurePoints emin emax steps bright dark).temporal.length = steps := by
  obtain ⟨h1, -, h3, -⟩ := exposurePoints_inv emin emax steps bright dark
  set p := exposurePoints emin emax steps bright dark
  have hnd : (exposures emin emax steps).Nodup := by
    rw [List.nodup_iff_injective_get]
    rintro ⟨i, hi⟩ ⟨j, hj⟩ hij
    have hi' : i < steps := by rwa [exposures_length] at hi
    have hj' : j < steps := by rwa [exposures_length] at hj
    have lt : ∀ a b : ℕ, a < b → round1 (emin + a * ((emax - emin) / ((steps : F) - 1))) <
        round1 (emin + b * ((emax - emin) / ((steps : F) - 1))) := by
      intro a b hab
      refine round1_lt ?_
      have : (a : F) + 1 ≤ b := by exact_mod_cast hab
      have := mul_le_mul_of_nonneg_right this (le_trans (by norm_num) hd.le)
      linarith
    have e1 := exposures_get emin emax steps i hi'
    have e2 := exposures_get emin emax steps j hj'
    rw [List.getElem?_eq_getElem hi] at e1
    rw [List.getElem?_eq_getElem hj] at e2
    have e : (exposures emin emax steps)[i] = (exposures emin emax steps)[j] := hij
    rw [Option.some.inj e1, Option.some.inj e2] at e
    rcases lt_trichotomy i j with h | h | h
    · exact absurd e (lt i j h).ne
    · exact Fin.ext h
    · exact absurd e (lt j i h).ne'
  have hperm : (Dict.keys p.temporal).Perm (exposures emin emax steps) := by
    rw [List.perm_ext_iff_of_nodup h1 hnd]
    intro t
    have := h3 t
    rw [show (t ∈ Dict.keys p.temporal) ↔ (Dict.get? p.temporal t).isSome = true from by
      rw [← Dict.has_iff]; rfl, this]
    constructor
    · rintro ⟨i, -, h⟩; exact List.mem_of_getElem? h
    · intro h
      obtain ⟨i, hi, h⟩ := List.mem_iff_getElem.1 h
      refine ⟨i, by rwa [exposures_length] at hi, ?_⟩
      rw [List.getElem?_eq_getElem hi, h]
  have := hperm.length_eq
  rw [exposures_length] at this
  simpa [Dict.keys] using this

/-- C56: exposures lie between the rounded limits, so they leave the range by at most 0.05 ns, and not at
all when the limits have at most one decimal. -/
theorem C56_range (emin emax : F) (steps : ℕ) (bright dark : ρ) (hs : 1 ≤ steps) (hle : emin ≤ emax) (t : F)
    (l : List ρ) (h : Dict.get? (exposurePoints emin emax steps bright dark).temporal t = some l) :
    emin - 1 / 20 ≤ t ∧ t ≤ emax + 1 / 20 ∧
    (∀ k m : ℤ, emin = (k : F) / 10 → emax = (m : F) / 10 → emin ≤ t ∧ t ≤ emax) := by
  obtain ⟨-, h1, h2, -⟩ := C56_exposure emin emax steps bright dark hs
  rw [h2 t l h] at h
  obtain ⟨i, hi, rfl⟩ := (h1 t).1 h
  set x := emin + i * ((emax - emin) / ((steps : F) - 1)) with hx
  have hin : emin ≤ x ∧ x ≤ emax := by
    by_cases hs1 : steps = 1
    · subst hs1
      have : i = 0 := by omega
      subst this
      simp [hx, hle]
    · have hpos : (0 : F) < (steps : F) - 1 := by
        have : (2 : F) ≤ steps := by exact_mod_cast (by omega : 2 ≤ steps)
        linarith
      have hi1 : (i : F) ≤ (steps : F) - 1 := by
        have : (i : F) + 1 ≤ steps := by exact_mod_cast hi
        linarith
      have hnn : 0 ≤ emax - emin := sub_nonneg.2 hle
      have hstep : 0 ≤ (emax - emin) / ((steps : F) - 1) := div_nonneg hnn hpos.le
      constructor
      · have := mul_nonneg (Nat.cast_nonneg (α := F) i) hstep
        linarith
      · have := mul_le_mul_of_nonneg_right hi1 hstep
        rw [mul_div_cancel₀ _ hpos.ne'] at this
        linarith
  have he := abs_le.1 (round1_err x)
  refine ⟨by linarith [he.1, hin.1], by linarith [he.2, hin.2], fun k m hk hm => ⟨?_, ?_⟩⟩
  · have := round1_mono hin.1
    rwa [hk, round1_tenth, ← hk] at this
  · have := round1_mono hin.2
    rwa [hm, round1_tenth, ← hm] at this

end

/-- C56, what is wrong: with limits of more than one decimal an exposure can be outside of the range. -/
theorem C56_range_counterexample : ∃ t l,
    Dict.get? (exposurePoints (ρ := Bool) (26 / 25 : ℚ) 2 2 true false).temporal t = some l ∧ t < 26 / 25 :=
  ⟨1, [true, false], by decide +kernel, by decide +kernel⟩

/-- C56: rounding can merge exposures: three steps, two exposures. -/
theorem C56_merge_counterexample :
    (exposurePoints (ρ := Bool) (1 : ℚ) (11 / 10) 3 true false).temporal.length = 2 := by decide +kernel

/-- no light on any pixel, at any wavelength -/
def Spec.noLight : Arr3 := fun _ _ _ => Fl.fin 0

/-- C56: photon variation.  There is one exposure, the given one rounded to an integer, with `steps`
bright radiances, equal everywhere, and the dark radiance; the spatial point has the middle bright
radiance and the dark one. -/
theorem C56_photon (c : Camera ℝ) (o : Optics) (rmin rmax : Arr3) (e : ℝ) (steps : ℕ) (hs : 1 ≤ steps) :
    ∃ bright : List Arr3, bright.length = steps ∧
      ∃ mid, bright[steps / 2]? = some mid ∧
      photonPoints c o rmin rmax e steps = .ok
        { spatial := [((rint e : ℝ), [mid, Spec.noLight])]
          temporal := [((rint e : ℝ), bright ++ [Spec.noLight])] } ∧
      ∀ b ∈ bright, ∃ f, ∀ i j k, b i j k = f := by
  set bright := (linspaceFl (arrMean c o rmin) (arrMean c o rmax) steps).map uniformRadiance with hb
  have hl : bright.length = steps := by simp [hb, linspaceFl]
  have hm : steps / 2 < bright.length := by omega
  refine ⟨bright, hl, bright[steps / 2], List.getElem?_eq_getElem hm, ?_, ?_⟩
  · unfold photonPoints photonRadiances
    rw [← hb]
    simp only
    rw [idx_nat (bright ++ [darkRadiance]) (steps / 2) bright[steps / 2] (by
      rw [List.getElem?_append_left hm, List.getElem?_eq_getElem hm])]
    rfl
  · intro b hb'
    obtain ⟨f, -, rfl⟩ := List.mem_map.1 hb'
    exact ⟨.fin 1 * f, fun _ _ _ => rfl⟩

namespace Cam

theorem fl_mean_replicate (n : ℕ) (x : ℝ) (h : n ≠ 0) : Fl.mean ((List.replicate n x).map Fl.fin) = .fin x := by
  rw [Fl.mean_fin _ (by simpa using h)]
  have : (n : ℝ) ≠ 0 := by exact_mod_cast h
  simp only [List.sum_replicate, nsmul_eq_mul, List.length_replicate]
  rw [mul_div_cancel_left₀ _ this]

theorem flatMap_const {α : Type} (n m : ℕ) (x : α) (f : ℕ → List α) (h : ∀ i, f i = List.replicate m x) :
    (List.range n).flatMap f = List.replicate (n * m) x := by
  induction n with
  | zero => simp
  | succ n ih =>
    rw [List.range_succ, List.flatMap_append, ih, Nat.succ_mul, List.replicate_add]
    simp [h]

theorem map_const_range {α : Type} (n : ℕ) (f : ℕ → α) (x : α) (h : ∀ k, k < n → f k = x) :
    (List.range n).map f = List.replicate n x := by
  rw [List.eq_replicate_iff]
  refine ⟨by simp, ?_⟩
  intro b hb
  obtain ⟨k, hk, rfl⟩ := List.mem_map.1 hb
  exact h k (List.mem_range.1 hk)

/-- the mean of a radiance that is the same everywhere -/
theorem arrMean_const (c : Camera ℝ) (o : Optics) (r : Arr3) (x : ℝ)
    (h : ∀ i j k, k < o.w.length → r i j k = .fin x) (h1 : c.height ≠ 0) (h2 : c.width ≠ 0) (h3 : o.w.length ≠ 0) :
    arrMean c o r = .fin x := by
  unfold arrMean arrList
  rw [flatMap_const c.height (c.width * o.w.length) (Fl.fin x)]
  · rw [← List.map_replicate]
    exact fl_mean_replicate _ _ (by simp [h1, h2, h3])
  · intro i
    rw [flatMap_const c.width o.w.length (Fl.fin x)]
    intro j
    exact map_const_range _ _ _ (h i j)

end Cam

namespace Cam

/-- an argument left out (or zero) is replaced by the limit of the camera -/
def Limit (arg : Option ℝ) (cam v : ℝ) : Prop :=
  (v ≠ 0 ∧ arg = some v) ∨ ((arg = none ∨ arg = some 0) ∧ v = cam)

theorem Limit.eq {arg : Option ℝ} {cam v : ℝ} (h : Limit arg cam v) : orDefault arg cam = v := by
  rcases h with ⟨h0, rfl⟩ | ⟨rfl | rfl, rfl⟩ <;> simp [orDefault, *]

end Cam

/-- C56: in an exposure time variation the exposures go between the given limits (those of the camera
for a limit left out), the camera is left at the longest exposure, and the bright radiance is the one
that gives the full scale there: the mean number of electrons times the gain is `2^bit_depth - 1`. -/
theorem C56_saturation (c : Camera ℝ) (o : Optics) (camMin camMax emin emax : ℝ) (a : PArgs) (n : Noise ℝ)
    (hf : a.exposureFixed = none) (hmin : Limit a.exposureMin camMin emin) (hmax : Limit a.exposureMax camMax emax)
    (hb : c.bitDepth ≠ 0) (ht : 0 < emax)
    (ha : 0 < o.pixelArea) (hK : c.K ≠ 0) (hd : o.temperatureDoubling ≠ 0) (hw : ∀ w ∈ o.w, w ≠ 0)
    (hp : ∀ i j, o.prnu i j = 1)
    (hq : ∑ i ∈ Finset.range c.height, ∑ j ∈ Finset.range c.width, ∑ k ∈ Finset.range o.w.length, o.qe i j k ≠ 0) :
    ∃ r ud u, mkPoints c o camMin camMax a n =
        (c.setExposure emax, .ok (exposurePoints emin emax a.steps r Spec.noLight)) ∧
      uTherm (c.setExposure emax) o none = .ok ud ∧
      (∀ i j, uE (c.setExposure emax) o r none i j = .fin (u i j)) ∧
      c.K * (pixelMean c.height c.width u + ud) = 2 ^ c.bitDepth - 1 := by
  have hpow : (2 : ℝ) ^ c.bitDepth - 1 ≠ 0 := by
    have : (1 : ℝ) < 2 ^ c.bitDepth := one_lt_pow₀ (by norm_num) hb
    linarith
  obtain ⟨r, ui, ud, u, h1, -, h3, h4, h5⟩ := C51_target (c.setExposure emax) o (2 ^ c.bitDepth - 1) none emax
    hpow rfl ht ha hK hd hw hp hq
  refine ⟨r, ud, u, ?_, h3, h4, ?_⟩
  · unfold mkPoints
    rw [hf, hmin.eq, hmax.eq]
    have := (C51_defaults (c.setExposure emax) o none none hb).1
    show (c.setExposure emax, (radianceFor (c.setExposure emax) o none none).bind _) = _
    rw [this]
    rw [show radianceFor (c.setExposure emax) o (some (.fin (2 ^ (c.setExposure emax).bitDepth - 1))) none = .ok r
      from h1]
    rfl
  · have : (c.setExposure emax).K = c.K := rfl
    rw [this] at h5
    have e : (c.setExposure emax).exposure = emax := rfl
    rw [e, sub_self, mul_zero, zero_div, add_zero] at h5
    exact h5

/-- C68, what is wrong: in a photon variation the given radiance limits have no influence. -/
theorem C68_limits_ignored (c : Camera ℝ) (o : Optics) (camMin camMax e : ℝ) (a : PArgs) (n : Noise ℝ)
    (he : a.exposureFixed = some e) (lo hi : Option Arr3) :
    mkPoints c o camMin camMax { a with radianceMin := lo, radianceMax := hi } n = mkPoints c o camMin camMax a n := by
  unfold mkPoints
  simp only [he]

/-- C68: in an exposure variation the given gain, black reference and radiance limits have no influence. -/
theorem C68_gain_ignored (c : Camera ℝ) (o : Optics) (camMin camMax : ℝ) (a : PArgs) (n : Noise ℝ)
    (he : a.exposureFixed = none) (g b : Option ℝ) (lo hi : Option Arr3) :
    mkPoints c o camMin camMax { a with gain := g, blackref := b, radianceMin := lo, radianceMax := hi } n =
      mkPoints c o camMin camMax a n := by
  unfold mkPoints
  simp only [he]

/-- C68: in a photon variation the camera is left at the given exposure, with the available gain and black
offset next to the given ones (those it had for arguments left out), everything else unchanged, and the
points are those of this camera. -/
theorem C68_camera (c : Camera ℝ) (o : Optics) (camMin camMax e g b : ℝ) (a : PArgs) (n : Noise ℝ)
    (he : a.exposureFixed = some e) (hg : Limit a.gain c.K g) (hb : Limit a.blackref c.blackoffset b)
    (hK : c.Ks ≠ []) (hB : c.blackoffsets ≠ []) :
    ∃ k bo, NearestFirst c.Ks g k ∧ NearestFirst c.blackoffsets b bo ∧
      mkPoints c o camMin camMax a n =
        ({ c with exposure := e, K := k, blackoffset := bo },
          photonRun { c with exposure := e, K := k, blackoffset := bo } o n e a.steps) := by
  obtain ⟨k, hk, h1⟩ := C48_gain (c.setExposure e) g hK
  obtain ⟨bo, hbo, h2⟩ := C48_blackoffset { c.setExposure e with K := k } b hB
  refine ⟨k, bo, hk, hbo, ?_⟩
  have h3 : setGainOffset (c.setExposure e) g b = .ok { c with exposure := e, K := k, blackoffset := bo } := by
    unfold setGainOffset
    rw [h1]
    exact h2
  unfold mkPoints
  simp only [he, hg.eq, hb.eq, h3]

/-- C68, what holds instead, for one wavelength: the bright radiances go in equal steps from the one for
the target grey value to the one for the full scale. -/
theorem C68_photon_limits_partial (c : Camera ℝ) (o : Optics) (n : Noise ℝ) (e m : ℝ) (img : Img) (steps : ℕ)
    (hs : 2 ≤ steps) (hex : 0 < c.exposure) (ha : 0 < o.pixelArea) (hK : c.K ≠ 0)
    (hd : o.temperatureDoubling ≠ 0) (w : ℝ) (hw : o.w = [w]) (hw0 : w ≠ 0)
    (hq : ∑ i ∈ Finset.range c.height, ∑ j ∈ Finset.range c.width, ∑ k ∈ Finset.range o.w.length, o.qe i j k ≠ 0)
    (hg : grabRadiance c o Spec.noLight none none n = .ok img) (hm : Img.mean ℝ img = .fin m)
    (hb : c.bitDepth ≠ 0)
    (ht0 : ((2 : ℝ) ^ c.bitDepth - 1 - m) / steps + m ≠ 0) :
    ∃ (rmin rmax : Arr3) (x y : ℝ) (bright : List Arr3),
      radianceFor c o (some (.fin (((2 : ℝ) ^ c.bitDepth - 1 - m) / steps + m))) none = .ok rmin ∧
      radianceFor c o (some (.fin ((2 : ℝ) ^ c.bitDepth - 1))) none = .ok rmax ∧
      (∀ i j, rmin i j 0 = .fin x ∧ rmax i j 0 = .fin y) ∧
      (∃ mid, photonRun c o n e steps = .ok
        { spatial := [((rint e : ℝ), [mid, Spec.noLight])]
          temporal := [((rint e : ℝ), bright ++ [Spec.noLight])] }) ∧
      bright.length = steps ∧
      ∀ (q : ℕ) (b : Arr3), bright[q]? = some b → ∀ i j k, b i j k = .fin (x + q * ((y - x) / ((steps : ℝ) - 1))) := by
  have hq' : qeTotal c o ≠ 0 := hq
  obtain ⟨h1, h2, h3⟩ := qeTotal_dims hq'
  have hpow : (2 : ℝ) ^ c.bitDepth - 1 ≠ 0 := by
    have : (1 : ℝ) < 2 ^ c.bitDepth := one_lt_pow₀ (by norm_num) hb
    linarith
  have hww := ww_pos (ws := o.w) (by rw [hw]; simpa using hw0) (k := 0) (by rw [hw]; simp)
  have hok : ∀ M : ℝ, M ≠ 0 → ∃ r x, radianceFor c o (some (.fin M)) none = .ok r ∧ ∀ i j, r i j 0 = .fin x := by
    intro M hM
    have hr := radianceFor_ok c o (some (.fin M)) none (t := c.exposure) (m := M) (if_neg (by simpa using hM)) rfl
      (uTherm_ok c o none hd) hex.ne' ha.ne' hK hq'
    have hx : ∀ (s p : ℝ), ∃ x, radianceElem s (.fin p) (o.w.getD 0 0) = .fin x := fun s p =>
      ⟨_, by simp only [radianceElem]; rw [Fl.fin_div hww.ne', Fl.fin_mul]⟩
    obtain ⟨x, hx⟩ := hx _ _
    exact ⟨_, x, hr, fun i j => hx⟩
  obtain ⟨rmin, x, hr1, hx⟩ := hok _ ht0
  obtain ⟨rmax, y, hr2, hy⟩ := hok _ hpow
  have hmx : ∀ (r : Arr3) (x : ℝ), (∀ i j, r i j 0 = .fin x) → arrMean c o r = .fin x := by
    intro r x h
    refine arrMean_const c o r x (fun i j k hk => ?_) h1 h2 h3
    have : k = 0 := by rw [hw] at hk; simpa using hk
    rw [this]; exact h i j
  obtain ⟨bright, hbl, mid, hmid, hpp, -⟩ := C56_photon c o rmin rmax e steps (by omega)
  have hs0 : (steps : ℝ) ≠ 0 := by exact_mod_cast (by omega : steps ≠ 0)
  have hrun : photonRun c o n e steps = photonPoints c o rmin rmax e steps := by
    unfold photonRun
    rw [show grabRadiance c o darkRadiance none none n = .ok img from hg]
    show (radianceFor c o (some ((Fl.fin ((imgMax c.bitDepth : ℤ) : ℝ) - Img.mean ℝ img) / .fin (steps : ℝ) +
      Img.mean ℝ img)) none).bind _ = _
    have hi : ((imgMax c.bitDepth : ℤ) : ℝ) = 2 ^ c.bitDepth - 1 := by unfold imgMax; push_cast; rfl
    rw [hm, hi, Fl.fin_sub, Fl.fin_div hs0, Fl.fin_add, hr1]
    show (radianceFor c o none none).bind _ = _
    rw [(C51_defaults c o none none hb).1, hr2]
    rfl
  set B := (linspaceFl (arrMean c o rmin) (arrMean c o rmax) steps).map uniformRadiance with hB
  have hBe : bright = B := by
    have : photonPoints c o rmin rmax e steps = .ok
        { spatial := [((rint e : ℝ), [mid, darkRadiance])]
          temporal := [((rint e : ℝ), bright ++ [darkRadiance])] } := hpp
    unfold photonPoints photonRadiances at this
    rw [← hB] at this
    simp only at this
    cases hidx : Np.idx (B ++ [darkRadiance]) ((steps / 2 : ℕ) : ℤ) with
    | error e1 => rw [hidx] at this; cases this
    | ok mid' =>
      rw [hidx] at this
      have e2 := Except.ok.inj this
      have e3 := congrArg Points.temporal e2
      simp only [List.cons.injEq, Prod.mk.injEq, true_and, and_true] at e3
      exact (List.append_cancel_right e3).symm
  refine ⟨rmin, rmax, x, y, bright, hr1, hr2, fun i j => ⟨hx i j, hy i j⟩, ⟨mid, by rw [hrun, hpp]⟩, hbl, ?_⟩
  intro q b hqb i j k
  have hqlt : q < steps := by
    have := (List.getElem?_eq_some_iff.1 hqb).1
    omega
  rw [hBe, hB, hmx rmin x hx, hmx rmax y hy] at hqb
  unfold linspaceFl at hqb
  rw [List.map_map, List.getElem?_map, List.getElem?_range hqlt] at hqb
  have := (Option.some.inj hqb).symm
  subst this
  have hs1 : (steps : ℝ) - 1 ≠ 0 := by
    have : (2 : ℝ) ≤ steps := by exact_mod_cast hs
    intro h; linarith
  simp only [Function.comp, uniformRadiance]
  rw [if_neg (by omega)]
  split_ifs with hl
  · rw [Fl.fin_mul, one_mul]
    congr 1
    have : (q : ℝ) = steps - 1 := by
      have : (q : ℝ) + 1 = steps := by exact_mod_cast hl
      linarith
    rw [this, mul_div_cancel₀ _ hs1]
    ring
  · rw [Fl.fin_sub, Fl.fin_div hs1, Fl.fin_mul, Fl.fin_add, Fl.fin_mul, one_mul]
    congr 1
    ring

/-! ### a case -/

/-- five exposures from 1 to 3, the middle one is spatial -/
example : exposurePoints (ρ := Bool) (1 : ℚ) 3 5 true false =
    { spatial := [(2, [true, false])]
      temporal := [(1, [true, false]), (3 / 2, [true, false]), (2, [true, false]), (5 / 2, [true, false]),
        (3, [true, false])] } := by
  have h1 : (exposurePoints (ρ := Bool) (1 : ℚ) 3 5 true false).spatial = [(2, [true, false])] := by decide +kernel
  have h2 : (exposurePoints (ρ := Bool) (1 : ℚ) 3 5 true false).temporal = [(1, [true, false]), (3 / 2, [true, false]),
      (2, [true, false]), (5 / 2, [true, false]), (3, [true, false])] := by decide +kernel
  rw [← h1, ← h2]

end Emva
