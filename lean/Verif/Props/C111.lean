import Verif.Props.Cases

/-!
C111: the brightest point of a photon variation.
-/
set_option autoImplicit false
namespace Emva
open Cam Spec

/-- how far the wavelengths are from each other: the mean of their squares times the mean of the inverse squares -/
noncomputable def Spec.waveSpread (w : List ℝ) : ℝ :=
  (w.map fun x => x ^ 2).sum / w.length * ((w.map fun x => (x ^ 2)⁻¹).sum / w.length)

theorem wave_step (a : ℝ) (ha : 0 < a) (l : List ℝ) (hl : ∀ x ∈ l, 0 < x) :
    0 ≤ a * (l.map fun x => x⁻¹).sum + l.sum / a - 2 * l.length ∧
    ((∃ x ∈ l, x ≠ a) → 0 < a * (l.map fun x => x⁻¹).sum + l.sum / a - 2 * l.length) := by
  induction l with
  | nil => simp
  | cons y l ih =>
    have hy := hl y (by simp)
    obtain ⟨h1, h2⟩ := ih fun x hx => hl x (by simp [hx])
    have e : a * ((y :: l).map fun x => x⁻¹).sum + (y :: l).sum / a - 2 * (y :: l).length =
        (y - a) ^ 2 / (a * y) + (a * (l.map fun x => x⁻¹).sum + l.sum / a - 2 * l.length) := by
      simp only [List.map_cons, List.sum_cons, List.length_cons]
      push_cast
      field_simp
      ring
    rw [e]
    refine ⟨add_nonneg (by positivity) h1, ?_⟩
    rintro ⟨x, hx, hne⟩
    by_cases hya : y = a
    · refine add_pos_of_nonneg_of_pos (by positivity) (h2 ⟨x, ?_, hne⟩)
      rcases List.mem_cons.1 hx with rfl | hx
      · exact absurd hya hne
      · exact hx
    · have : 0 < (y - a) ^ 2 := by
        have := sub_ne_zero.2 hya
        positivity
      exact add_pos_of_pos_of_nonneg (by positivity) h1

theorem wave_sums (l : List ℝ) (hl : ∀ x ∈ l, 0 < x) :
    (l.length : ℝ) ^ 2 ≤ l.sum * (l.map fun x => x⁻¹).sum ∧
    ((∃ x ∈ l, ∃ y ∈ l, x ≠ y) → (l.length : ℝ) ^ 2 < l.sum * (l.map fun x => x⁻¹).sum) := by
  induction l with
  | nil => simp
  | cons a l ih =>
    have ha := hl a (by simp)
    have h1 := (ih fun x hx => hl x (by simp [hx])).1
    obtain ⟨h2, h3⟩ := wave_step a ha l fun x hx => hl x (by simp [hx])
    have e : (a :: l).sum * ((a :: l).map fun x => x⁻¹).sum - ((a :: l).length : ℝ) ^ 2 =
        (a * (l.map fun x => x⁻¹).sum + l.sum / a - 2 * l.length) +
          (l.sum * (l.map fun x => x⁻¹).sum - (l.length : ℝ) ^ 2) := by
      simp only [List.map_cons, List.sum_cons, List.length_cons]
      push_cast
      field_simp
      ring
    refine ⟨by linarith, ?_⟩
    rintro ⟨x, hx, y, hy, hne⟩
    have : ∃ x ∈ l, x ≠ a := by
      by_contra hc
      push Not at hc
      have : ∀ z ∈ a :: l, z = a := by
        intro z hz
        rcases List.mem_cons.1 hz with rfl | hz
        · rfl
        · exact hc z hz
      exact hne ((this x hx).trans (this y hy).symm)
    have := h3 this
    linarith

/-- wavelengths that are all the same have the spread 1, all others a larger one -/
theorem wave_eq_one (w : List ℝ) (h0 : w ≠ []) (x : ℝ) (hx : x ≠ 0) (h : ∀ y ∈ w, y = x) : waveSpread w = 1 := by
  have e : w = List.replicate w.length x := List.eq_replicate_iff.2 ⟨rfl, h⟩
  have hn : (w.length : ℝ) ≠ 0 := by exact_mod_cast (List.length_pos_iff.2 h0).ne'
  unfold waveSpread
  generalize w.length = n at *
  subst e
  simp only [List.map_replicate, List.sum_replicate, nsmul_eq_mul]
  field_simp

theorem one_lt_wave (w : List ℝ) (hw : ∀ x ∈ w, 0 < x) (h : ∃ x ∈ w, ∃ y ∈ w, x ≠ y) : 1 < waveSpread w := by
  obtain ⟨x, hx, y, hy, hne⟩ := h
  have hn : (0 : ℝ) < w.length := by exact_mod_cast List.length_pos_of_mem hx
  have := (wave_sums (w.map fun x => x ^ 2) (by
    intro z hz
    obtain ⟨t, ht, rfl⟩ := List.mem_map.1 hz
    exact pow_pos (hw t ht) 2)).2 ⟨x ^ 2, List.mem_map.2 ⟨x, hx, rfl⟩, y ^ 2, List.mem_map.2 ⟨y, hy, rfl⟩, fun e =>
      hne ((pow_left_inj₀ (hw x hx).le (hw y hy).le (by norm_num)).1 e)⟩
  rw [List.length_map, List.map_map] at this
  unfold waveSpread
  rw [div_mul_div_comm, one_lt_div (by positivity), ← pow_two]
  exact this

theorem sum_getD (w : List ℝ) (f : ℝ → ℝ) : ∑ k ∈ Finset.range w.length, f (w.getD k 0) = (w.map f).sum := by
  induction w with
  | nil => simp
  | cons a l ih =>
    rw [List.length_cons, Finset.sum_range_succ', List.map_cons, List.sum_cons, ← ih, add_comm]
    rfl

/-- the mean of a radiance that is the same for all pixels -/
theorem arrMean_waves (c : Camera ℝ) (o : Optics) (r : Arr3) (ρ : ℕ → ℝ)
    (h : ∀ i j k, k < o.w.length → r i j k = .fin (ρ k)) (h1 : c.height ≠ 0) (h2 : c.width ≠ 0) (h3 : o.w.length ≠ 0) :
    arrMean c o r = .fin ((∑ k ∈ Finset.range o.w.length, ρ k) / o.w.length) := by
  have e : arrList c o r = ((List.range c.height).flatMap fun _ => (List.range c.width).flatMap fun _ =>
      (List.range o.w.length).map ρ).map Fl.fin := by
    unfold arrList
    rw [List.map_flatMap]
    congr 1; funext i
    rw [List.map_flatMap]
    congr 1; funext j
    rw [List.map_map]
    exact List.map_congr_left fun k hk => h i j k (List.mem_range.1 hk)
  have hlen := length_flatMap_range c.height (c.width * o.w.length) (fun _ => (List.range c.width).flatMap fun _ =>
      (List.range o.w.length).map ρ) fun _ => length_flatMap_range _ _ _ fun _ => by simp
  have h1' : (c.height : ℝ) ≠ 0 := by exact_mod_cast h1
  have h2' : (c.width : ℝ) ≠ 0 := by exact_mod_cast h2
  have h3' : (o.w.length : ℝ) ≠ 0 := by exact_mod_cast h3
  unfold arrMean
  rw [e, Fl.mean_fin, hlen, sum_flatMap_range]
  · simp only [sum_flatMap_range, sum_range_map, Finset.sum_const, Finset.card_range, nsmul_eq_mul]
    congr 1
    push_cast
    field_simp
  · intro h0
    rw [h0] at hlen
    simp [h1, h2, h3] at hlen

/-- C111: the mean grey value of the brightest point of a photon variation, for a quantum efficiency that does not depend on the
wavelength: above the dark current, the full scale is multiplied by the spread of the wavelengths. -/
theorem C111_brightest (c : Camera ℝ) (o : Optics) (n : Noise ℝ) (e : ℝ) (steps : ℕ) (pts : Points ℝ Arr3)
    (h : photonRun c o n e steps = .ok pts) (hs : 2 ≤ steps) (hb : c.bitDepth ≠ 0) (ht : 0 < c.exposure)
    (ha : 0 < o.pixelArea) (hK : c.K ≠ 0) (hd : o.temperatureDoubling ≠ 0) (hw : ∀ w ∈ o.w, w ≠ 0)
    (hp : ∀ i j, o.prnu i j = 1) (q : ℕ → ℕ → ℝ) (hqe : ∀ i j k, k < o.w.length → o.qe i j k = q i j)
    (hq : ∑ i ∈ Finset.range c.height, ∑ j ∈ Finset.range c.width, ∑ k ∈ Finset.range o.w.length, o.qe i j k ≠ 0) :
    ∃ (bright : List Arr3) (top : Arr3) (ud : ℝ) (u : ℕ → ℕ → ℝ),
      pts.temporal = [((rint e : ℝ), bright ++ [Spec.noLight])] ∧ bright.length = steps ∧ bright.getLast? = some top ∧
      uTherm c o none = .ok ud ∧ (∀ i j, uE c o top none i j = .fin (u i j)) ∧
      c.K * (pixelMean c.height c.width u + ud) = c.K * ud + (2 ^ c.bitDepth - 1 - c.K * ud) * waveSpread o.w := by
  have hq' : qeTotal c o ≠ 0 := hq
  obtain ⟨h1, h2, h3⟩ := qeTotal_dims hq'
  have hi : ((imgMax c.bitDepth : ℤ) : ℝ) = 2 ^ c.bitDepth - 1 := by unfold imgMax; push_cast; rfl
  have hud := uTherm_ok c o none hd
  generalize o.darkCurrentRef * (2 : ℝ) ^ ((Option.getD none o.temperature - o.temperatureRef) / o.temperatureDoubling) *
    c.exposure / 10 ^ 9 = ud at hud
  have hr := radianceFor_ok c o none none (t := c.exposure) (m := 2 ^ c.bitDepth - 1) (by rw [← hi]; rfl) rfl hud ht.ne' ha.ne' hK hq'
  set P := ((2 ^ c.bitDepth - 1) / c.K - ud) / o.w.length / (qeTotal c o / (c.height * (c.width * o.w.length))) with hP
  set S := photonScalar c.exposure o.pixelArea o.fNumber with hS
  have hS0 : 0 < S := photonScalar_pos o.fNumber ht ha
  have hwv : ∀ k, k < o.w.length → o.w.getD k 0 ≠ 0 := fun k hk => by
    simp only [List.getD, List.getElem?_eq_getElem hk, Option.getD_some]
    exact hw _ (List.getElem_mem hk)
  have hmean := arrMean_waves c o (fun _ _ k => radianceElem (1 / S) (.fin P) (o.w.getD k 0))
    (fun k => P * (1 / S / (o.w.getD k 0 * 1e-9 * (o.w.getD k 0 * 1e-9)))) (fun i j k hk => by
      simp only [radianceElem]
      rw [Fl.fin_div (ww_pos hw hk).ne', Fl.fin_mul]) h1 h2 h3
  set y := (∑ k ∈ Finset.range o.w.length, P * (1 / S / (o.w.getD k 0 * 1e-9 * (o.w.getD k 0 * 1e-9)))) / (o.w.length : ℝ) with hy
  -- the points
  unfold photonRun at h
  simp only [bind, Except.bind] at h
  split at h
  · cases h
  split at h
  · cases h
  rename_i rmin _
  rw [hr] at h
  simp only at h
  unfold photonPoints photonRadiances at h
  simp only [bind, Except.bind] at h
  split at h
  · cases h
  have h := (Except.ok.inj h).symm
  subst h
  refine ⟨_, uniformRadiance (.fin y), ud, fun i j => y * S * (∑ k ∈ Finset.range o.w.length, (o.w.getD k 0 * 1e-9 * (o.w.getD k 0 * 1e-9))) * q i j,
    rfl, by simp [linspaceFl], ?_, hud, ?_, ?_⟩
  · unfold linspaceFl
    rw [List.getLast?_eq_getElem?]
    simp only [List.length_map, List.length_range, List.getElem?_map]
    rw [List.getElem?_range (by omega)]
    simp only [Option.map_some]
    rw [if_neg (by omega), if_pos (by omega), hmean]
  · intro i j
    unfold uE
    have e1 : ((List.range o.w.length).map fun k => camPhotons c o (uniformRadiance (.fin y)) none none i j k * Fl.fin (o.qe i j k)) =
        ((List.range o.w.length).map fun k => y * S * (o.w.getD k 0 * 1e-9 * (o.w.getD k 0 * 1e-9)) * q i j).map Fl.fin := by
      rw [List.map_map]
      refine List.map_congr_left fun k hk => ?_
      simp only [Function.comp, camPhotons, getPhotons, photonElem, uniformRadiance, Option.getD_none, Fl.fin_mul, ← hS]
      rw [hqe i j k (List.mem_range.1 hk)]
      congr 1
      ring
    rw [e1, Fl.sum_fin, Fl.fin_mul, sum_range_map, hp, mul_one, ← Finset.sum_mul, ← Finset.mul_sum]
  · have h1' : (c.height : ℝ) ≠ 0 := by exact_mod_cast h1
    have h2' : (c.width : ℝ) ≠ 0 := by exact_mod_cast h2
    have h3' : (o.w.length : ℝ) ≠ 0 := by exact_mod_cast h3
    have hQ : qeTotal c o = o.w.length * ∑ i ∈ Finset.range c.height, ∑ j ∈ Finset.range c.width, q i j := by
      unfold qeTotal
      rw [Finset.mul_sum]
      refine Finset.sum_congr rfl fun i _ => ?_
      rw [Finset.mul_sum]
      refine Finset.sum_congr rfl fun j _ => ?_
      rw [Finset.sum_congr rfl fun k hk => hqe i j k (Finset.mem_range.1 hk)]
      simp
    have hQ0 : ∑ i ∈ Finset.range c.height, ∑ j ∈ Finset.range c.width, q i j ≠ 0 := fun e => hq' (by rw [hQ, e, mul_zero])
    have eA : ∑ k ∈ Finset.range o.w.length, (o.w.getD k 0 * 1e-9 * (o.w.getD k 0 * 1e-9)) =
        1e-18 * (o.w.map fun x => x ^ 2).sum := by
      rw [← sum_getD, Finset.mul_sum]
      refine Finset.sum_congr rfl fun k _ => ?_
      norm_num
      ring
    have eB : ∑ k ∈ Finset.range o.w.length, P * (1 / S / (o.w.getD k 0 * 1e-9 * (o.w.getD k 0 * 1e-9))) =
        P / S * 1e18 * (o.w.map fun x => (x ^ 2)⁻¹).sum := by
      rw [← sum_getD, Finset.mul_sum]
      refine Finset.sum_congr rfl fun k hk => ?_
      have := hwv k (Finset.mem_range.1 hk)
      norm_num
      field_simp
      try norm_num
    rw [eA, hy, eB, hP, hQ]
    unfold pixelMean waveSpread
    simp only [← Finset.mul_sum]
    generalize (∑ i ∈ Finset.range c.height, ∑ j ∈ Finset.range c.width, q i j) = Q at *
    generalize (o.w.map fun x => x ^ 2).sum = A
    generalize (o.w.map fun x => (x ^ 2)⁻¹).sum = B
    generalize (2 : ℝ) ^ c.bitDepth = T
    generalize (o.w.length : ℝ) = z at *
    have hS1 := hS0.ne'
    norm_num
    field_simp
    try ring

/-- C111 for one wavelength (given any number of times): the brightest point of a photon variation gives the full scale. Missing, and
wrong (`C111_overexposed`): several wavelengths. -/
theorem C111_full_scale_partial (c : Camera ℝ) (o : Optics) (n : Noise ℝ) (e : ℝ) (steps : ℕ) (pts : Points ℝ Arr3)
    (h : photonRun c o n e steps = .ok pts) (hs : 2 ≤ steps) (hb : c.bitDepth ≠ 0) (ht : 0 < c.exposure)
    (ha : 0 < o.pixelArea) (hK : c.K ≠ 0) (hd : o.temperatureDoubling ≠ 0) (x : ℝ) (hx : x ≠ 0) (hw : ∀ w ∈ o.w, w = x)
    (hp : ∀ i j, o.prnu i j = 1) (q : ℕ → ℕ → ℝ) (hqe : ∀ i j k, k < o.w.length → o.qe i j k = q i j)
    (hq : ∑ i ∈ Finset.range c.height, ∑ j ∈ Finset.range c.width, ∑ k ∈ Finset.range o.w.length, o.qe i j k ≠ 0) :
    ∃ (bright : List Arr3) (top : Arr3) (ud : ℝ) (u : ℕ → ℕ → ℝ),
      pts.temporal = [((rint e : ℝ), bright ++ [Spec.noLight])] ∧ bright.length = steps ∧ bright.getLast? = some top ∧
      uTherm c o none = .ok ud ∧ (∀ i j, uE c o top none i j = .fin (u i j)) ∧
      c.K * (pixelMean c.height c.width u + ud) = 2 ^ c.bitDepth - 1 := by
  obtain ⟨br, top, ud, u, g1, g2, g3, g4, g5, g6⟩ := C111_brightest c o n e steps pts h hs hb ht ha hK hd
    (fun w hw' => by rw [hw w hw']; exact hx) hp q hqe hq
  refine ⟨br, top, ud, u, g1, g2, g3, g4, g5, ?_⟩
  rw [g6, wave_eq_one o.w (fun e0 => (qeTotal_dims (c := c) (o := o) hq).2.2 (by rw [e0]; rfl)) x hx hw]
  ring

/-- C111 does not hold for different wavelengths: the brightest point is above the full scale. -/
theorem C111_overexposed (c : Camera ℝ) (o : Optics) (n : Noise ℝ) (e : ℝ) (steps : ℕ) (pts : Points ℝ Arr3)
    (h : photonRun c o n e steps = .ok pts) (hs : 2 ≤ steps) (hb : c.bitDepth ≠ 0) (ht : 0 < c.exposure)
    (ha : 0 < o.pixelArea) (hK : c.K ≠ 0) (hd : o.temperatureDoubling ≠ 0) (hw : ∀ w ∈ o.w, 0 < w)
    (hne : ∃ x ∈ o.w, ∃ y ∈ o.w, x ≠ y)
    (hp : ∀ i j, o.prnu i j = 1) (q : ℕ → ℕ → ℝ) (hqe : ∀ i j k, k < o.w.length → o.qe i j k = q i j)
    (hq : ∑ i ∈ Finset.range c.height, ∑ j ∈ Finset.range c.width, ∑ k ∈ Finset.range o.w.length, o.qe i j k ≠ 0)
    (hdark : ∀ ud, uTherm c o none = .ok ud → c.K * ud < 2 ^ c.bitDepth - 1) :
    ∃ (bright : List Arr3) (top : Arr3) (ud : ℝ) (u : ℕ → ℕ → ℝ),
      pts.temporal = [((rint e : ℝ), bright ++ [Spec.noLight])] ∧ bright.length = steps ∧ bright.getLast? = some top ∧
      uTherm c o none = .ok ud ∧ (∀ i j, uE c o top none i j = .fin (u i j)) ∧
      2 ^ c.bitDepth - 1 < c.K * (pixelMean c.height c.width u + ud) := by
  obtain ⟨br, top, ud, u, g1, g2, g3, g4, g5, g6⟩ := C111_brightest c o n e steps pts h hs hb ht ha hK hd
    (fun w hw' => (hw w hw').ne') hp q hqe hq
  refine ⟨br, top, ud, u, g1, g2, g3, g4, g5, ?_⟩
  have h1 := one_lt_wave o.w hw hne
  have h2 := hdark ud g4
  rw [g6]
  nlinarith [mul_pos (sub_pos.2 h2) (sub_pos.2 h1)]

/-- the optics of the example with wavelengths `w` -/
noncomputable def wideOptics (w : List ℝ) : Optics := { smallOptics with w := w }

theorem wide_qe (w : List ℝ) (h : w ≠ []) : ∑ i ∈ Finset.range smallCamera.height, ∑ j ∈ Finset.range smallCamera.width,
    ∑ k ∈ Finset.range (wideOptics w).w.length, (wideOptics w).qe i j k ≠ 0 := by
  simp [smallCamera, smallOptics, wideOptics, h]

theorem wide_run (w : List ℝ) (h : w ≠ []) (n : Noise ℝ) : ∃ pts, photonRun smallCamera (wideOptics w) n 5000 5 = .ok pts := by
  obtain ⟨img, hi⟩ := C49_grab smallCamera (wideOptics w) (fun _ _ _ => 0) none none n (by norm_num [wideOptics, smallOptics])
    (by norm_num [smallCamera]) (by norm_num [wideOptics, smallOptics]) (by norm_num [wideOptics, smallOptics])
    (by norm_num [wideOptics, smallOptics]) (by norm_num [wideOptics, smallOptics]) (by norm_num)
  obtain ⟨h1, h2, h3⟩ := C49_grab_range _ _ _ _ _ _ _ (by decide) hi
  have hm : Img.mean ℝ img = .fin ((img.total : ℝ) / 2) := by
    rw [Img.mean, Img.size, h1, h2]
    exact Fl.fin_div (by norm_num [smallCamera])
  have h0 : (0 : ℝ) ≤ img.total := by
    have : 0 ≤ img.total := Finset.sum_nonneg fun i _ => Finset.sum_nonneg fun j _ => (h3 i j).1
    exact_mod_cast this
  have hok : ∀ M : ℝ, M ≠ 0 → ∃ r, radianceFor smallCamera (wideOptics w) (some (.fin M)) none = .ok r := fun M hM =>
    ⟨_, radianceFor_ok smallCamera (wideOptics w) (some (.fin M)) none (t := smallCamera.exposure) (m := M) (if_neg (by simpa using hM)) rfl
      (uTherm_ok _ _ none (by norm_num [wideOptics, smallOptics])) (by norm_num [smallCamera]) (by norm_num [wideOptics, smallOptics])
      (by norm_num [smallCamera]) (wide_qe w h)⟩
  have hi' : ((imgMax smallCamera.bitDepth : ℤ) : ℝ) = 255 := by norm_num [imgMax, smallCamera]
  obtain ⟨rmin, hr1⟩ := hok ((255 - (img.total : ℝ) / 2) / ((5 : ℕ) : ℝ) + (img.total : ℝ) / 2) (by
    push_cast
    intro h
    linarith)
  obtain ⟨rmax, hr2⟩ := hok (2 ^ smallCamera.bitDepth - 1) (by norm_num [smallCamera])
  obtain ⟨_, _, _, _, hpp, -⟩ := C56_photon smallCamera (wideOptics w) rmin rmax 5000 5 (by norm_num)
  refine ⟨_, Eq.trans ?_ hpp⟩
  unfold photonRun
  rw [show grabRadiance smallCamera (wideOptics w) darkRadiance none none n = .ok img from hi]
  show (radianceFor smallCamera (wideOptics w) (some ((Fl.fin ((imgMax smallCamera.bitDepth : ℤ) : ℝ) - Img.mean ℝ img) /
    .fin ((5 : ℕ) : ℝ) + Img.mean ℝ img)) none).bind _ = _
  rw [hm, hi', Fl.fin_sub, Fl.fin_div (by norm_num), Fl.fin_add, hr1]
  show (radianceFor smallCamera (wideOptics w) none none).bind _ = _
  rw [(C51_defaults smallCamera (wideOptics w) none none (by decide)).1, hr2]
  rfl

/-- the hypotheses of `C111_full_scale_partial` -/
example (n : Noise ℝ) := C111_full_scale_partial smallCamera (wideOptics [525]) n 5000 5 _ (wide_run [525] (by simp) n).choose_spec (by norm_num)
  (by decide) (by norm_num [smallCamera]) (by norm_num [wideOptics, smallOptics]) (by norm_num [smallCamera])
  (by norm_num [wideOptics, smallOptics]) 525 (by norm_num) (by simp [wideOptics]) (fun _ _ => rfl) (fun _ _ => 1 / 2)
  (fun _ _ _ _ => rfl) (wide_qe _ (by simp))

/-- the hypotheses of `C111_overexposed`: blue and red light -/
example (n : Noise ℝ) := C111_overexposed smallCamera (wideOptics [450, 650]) n 5000 5 _ (wide_run [450, 650] (by simp) n).choose_spec
  (by norm_num) (by decide) (by norm_num [smallCamera]) (by norm_num [wideOptics, smallOptics]) (by norm_num [smallCamera])
  (by norm_num [wideOptics, smallOptics]) (by norm_num [wideOptics]) ⟨450, by simp [wideOptics], 650, by simp [wideOptics], by norm_num⟩
  (fun _ _ => rfl) (fun _ _ => 1 / 2) (fun _ _ _ _ => rfl) (wide_qe _ (by simp)) (by
    intro ud hu
    rw [uTherm_ok _ _ none (by norm_num [wideOptics, smallOptics])] at hu
    have hu := (Except.ok.inj hu).symm
    subst hu
    norm_num [wideOptics, smallOptics, smallCamera])

end Emva
