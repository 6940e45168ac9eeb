import Verif.Model.IeeeDark
import Verif.Props.C106
import Verif.Props.C108

/-!
C108 with the limits of float64: the dark currents neither overflow nor underflow.
-/
set_option autoImplicit false
namespace Emva
open Spec Data Results Rounding

/-- zero, or of size between `2^-a` and `2^a` -/
def Sized (a : ℤ) (x : ℝ) : Prop := x = 0 ∨ Mag a |x|

namespace Sized
variable {a b : ℤ} {x y : ℝ}

theorem weaken (h : Sized a x) (hab : a ≤ b) : Sized b x := h.imp id fun h => h.weaken hab

theorem f64_eq (h : Sized a x) (ha : a ≤ 1022) : f64 x = .fin (b64 x) := by
  rcases h with rfl | h
  · exact Emva.f64_eq (.inl rfl) (by rw [abs_zero]; positivity)
  · exact Emva.f64_eq (.inr ((two_zpow_mono (by omega)).trans h.ge)) (h.le.trans (two_zpow_mono (by omega)))

theorem rnd (h : Sized a x) : Sized (a + 1) (b64 x) := by
  have h1 := binary64.err x
  have e : binary64.rnd x = b64 x := rfl
  rw [e] at h1
  rcases h with rfl | h
  · left; simpa using h1
  · right
    have h2 : (2 : ℝ) ^ (-53 : ℤ) ≤ 1 / 100 := by norm_num
    have h3 := h1.trans (mul_le_mul_of_nonneg_right h2 h.pos.le)
    have h4 := abs_sub_abs_le_abs_sub (b64 x) x
    have h5 := abs_sub_abs_le_abs_sub x (b64 x)
    rw [abs_sub_comm x] at h5
    have h0 := h.pos
    constructor
    · rw [neg_add, zpow_add₀ (by norm_num)]
      have := h.ge
      have e : (2 : ℝ) ^ (-1 : ℤ) = 1 / 2 := by norm_num
      rw [e]
      linarith
    · rw [zpow_add_one₀ (by norm_num)]
      have := h.le
      linarith

theorem mul (h : Sized a x) (h' : Mag b y) : Sized (a + b) (x * y) := by
  rcases h with rfl | h
  · left; simp
  · right; rw [abs_mul, abs_of_pos h'.pos]; exact h.mul h'

theorem div (h : Sized a x) (h' : Mag b y) : Sized (a + b) (x / y) := by
  rw [div_eq_mul_inv]; exact h.mul h'.inv

theorem rounded_mul (h : Sized a x) (h' : Mag b y) (hab : a + b ≤ 1022) :
    rounded (.fin x * .fin y) = .fin (b64 (x * y)) ∧ Sized (a + b + 1) (b64 (x * y)) := by
  rw [Fl.fin_mul]; exact ⟨(h.mul h').f64_eq hab, (h.mul h').rnd⟩

theorem rounded_div (h : Sized a x) (h' : Mag b y) (hab : a + b ≤ 1022) :
    rounded (.fin x / .fin y) = .fin (b64 (x / y)) ∧ Sized (a + b + 1) (b64 (x / y)) := by
  rw [Fl.fin_div h'.pos.ne']; exact ⟨(h.div h').f64_eq hab, (h.div h').rnd⟩

end Sized

theorem mag_giga : Mag 30 ((10 : ℝ) ^ 9) := by
  constructor <;> norm_num

namespace Ieee
variable (q : LSQ ℝ)

theorem stable_uIVarDN : Stable (uIVarDN q) := by
  have := stable_gain q; unfold uIVarDN; stab
theorem stable_uIMeanDN : Stable (uIMeanDN q) := by
  unfold uIMeanDN; stab

theorem val_overK {x : M ℝ (PyNum ℝ)} (hx : Stable x) (r : Res ℝ) :
    (val x r = .ok .npnan → val (overK q x) r = .ok .npnan) ∧
    (∀ v k, val x r = .ok (.num v) → val (gain q) r = .ok k → val (overK q x) r = .ok (.num (rounded (v / k)))) := by
  have sK := stable_gain q
  constructor
  · intro h
    unfold overK
    rw [val_bind_ok hx (by rintro (_ | _ | _) <;> stab) h, val_pure]
  · intro v k h hk
    unfold overK
    rw [val_bind_ok hx (by rintro (_ | _ | _) <;> stab) h]
    show val (do let k ← gain q; pure (PyNum.num (rounded (v / k)))) r = _
    rw [val_bind_ok sK (by stab) hk, val_pure]

end Ieee

/-- the dark currents in float64 are those without its limits, if gain and slopes are of ordinary size -/
theorem ieee_currents (q : LSQ ℝ) (r : Res ℝ) (many : 2 < r.temporal.texp.toFinset.card) (k m b v c : ℝ)
    (hk : val (Ieee.gain q) r = .ok (.fin k)) (hg : val (Ieee.gain q) r = val (Rounded.gain binary64 q) r) (sk : Mag 100 k)
    (hM : linearB q (r.temporal.texp.map .fin) r.temporal.u_ydark = .ok (.fin m, .fin b)) (sm : Sized 100 m)
    (hV : linearB q (r.temporal.texp.map .fin) r.temporal.s2_ydark = .ok (.fin v, .fin c)) (sv : Sized 100 v) :
    val (Ieee.uIMeanDN q) r = val (Rounded.uIMeanDN binary64 q) r ∧
    val (Ieee.uIMean q) r = val (Rounded.uIMean binary64 q) r ∧
    val (Ieee.uIVarDN q) r = val (Rounded.uIVarDN binary64 q) r ∧
    val (Ieee.uIVar q) r = val (Rounded.uIVar binary64 q) r := by
  have sI := Ieee.stable_gain q
  have sR := Rounded.stable_gain binary64 q
  have hk' := hg.symm.trans hk
  obtain ⟨a1, a2⟩ := sm.rounded_mul mag_giga (by norm_num)
  obtain ⟨a3, -⟩ := a2.rounded_div sk (by norm_num)
  obtain ⟨a4, a5⟩ := sv.rounded_div sk (by norm_num)
  obtain ⟨a6, a7⟩ := a5.rounded_mul mag_giga (by norm_num)
  obtain ⟨a8, -⟩ := a7.rounded_div sk (by norm_num)
  have r1 : Rounded.rd binary64 (.fin m * .fin (10 ^ 9)) = .fin (b64 (m * 10 ^ 9)) := by rw [Fl.fin_mul]; rfl
  have r3 : Rounded.rd binary64 (.fin (b64 (m * 10 ^ 9)) / .fin k) = .fin (b64 (b64 (m * 10 ^ 9) / k)) := by rw [Fl.fin_div sk.pos.ne']; rfl
  have r4 : Rounded.rd binary64 (.fin v / .fin k) = .fin (b64 (v / k)) := by rw [Fl.fin_div sk.pos.ne']; rfl
  have r6 : Rounded.rd binary64 (.fin (b64 (v / k)) * .fin (10 ^ 9)) = .fin (b64 (b64 (v / k) * 10 ^ 9)) := by rw [Fl.fin_mul]; rfl
  have r8 : Rounded.rd binary64 (.fin (b64 (b64 (v / k) * 10 ^ 9)) / .fin k) = .fin (b64 (b64 (b64 (v / k) * 10 ^ 9) / k)) := by
    rw [Fl.fin_div sk.pos.ne']; rfl
  have m1 : val (Ieee.uIMeanDN q) r = .ok (.num (.fin (b64 (m * 10 ^ 9)))) := by
    unfold Ieee.uIMeanDN
    rw [val_bind_ok stable_few (by stab) (val_many many)]
    simp only [Bool.false_eq_true, if_false]
    rw [val_bind_ok stable_temporal (by stab) rfl, hM, val_bind_ok (Stable.lift _) (by stab) rfl, val_pure, a1]
  have m2 : val (Rounded.uIMeanDN binary64 q) r = .ok (.num (.fin (b64 (m * 10 ^ 9)))) := by
    unfold Rounded.uIMeanDN
    rw [val_bind_ok stable_few (by stab) (val_many many)]
    simp only [Bool.false_eq_true, if_false]
    rw [val_bind_ok stable_temporal (by stab) rfl, hM, val_bind_ok (Stable.lift _) (by stab) rfl, val_pure, r1]
  refine ⟨m1.trans m2.symm, ?_, ?_⟩
  · refine ((Ieee.val_overK q (Ieee.stable_uIMeanDN q) r).2 _ _ m1 hk).trans
      (Eq.trans ?_ ((Rounded.val_overK binary64 q (Rounded.stable_uIMeanDN binary64 q) r).2 _ _ m2 hk').symm)
    rw [a3, r3]
  by_cases hv : v < 0
  · have v1 : val (Ieee.uIVarDN q) r = .ok .npnan := by
      unfold Ieee.uIVarDN
      rw [val_bind_ok stable_few (by stab) (val_many many)]
      simp only [Bool.false_eq_true, if_false]
      rw [val_bind_ok stable_temporal (by stab) rfl, hV, val_bind_ok (Stable.lift _) (by stab) rfl,
        if_pos (show Fl.lt (.fin v) (.fin 0) = true from decide_eq_true hv), val_pure]
    have v2 : val (Rounded.uIVarDN binary64 q) r = .ok .npnan := by
      unfold Rounded.uIVarDN
      rw [val_bind_ok stable_few (by stab) (val_many many)]
      simp only [Bool.false_eq_true, if_false]
      rw [val_bind_ok stable_temporal (by stab) rfl, hV, val_bind_ok (Stable.lift _) (by stab) rfl,
        if_pos (show Fl.lt (.fin v) (.fin 0) = true from decide_eq_true hv), val_pure]
    exact ⟨v1.trans v2.symm, ((Ieee.val_overK q (Ieee.stable_uIVarDN q) r).1 v1).trans
      ((Rounded.val_overK binary64 q (Rounded.stable_uIVarDN binary64 q) r).1 v2).symm⟩
  · have v1 : val (Ieee.uIVarDN q) r = .ok (.num (.fin (b64 (b64 (v / k) * 10 ^ 9)))) := by
      unfold Ieee.uIVarDN
      rw [val_bind_ok stable_few (by stab) (val_many many)]
      simp only [Bool.false_eq_true, if_false]
      rw [val_bind_ok stable_temporal (by stab) rfl, hV, val_bind_ok (Stable.lift _) (by stab) rfl,
        if_neg (show ¬ Fl.lt (.fin v) (.fin 0) = true from fun h => hv (of_decide_eq_true h)), val_bind_ok sI (by stab) hk, val_pure, a4, a6]
    have v2 : val (Rounded.uIVarDN binary64 q) r = .ok (.num (.fin (b64 (b64 (v / k) * 10 ^ 9)))) := by
      unfold Rounded.uIVarDN
      rw [val_bind_ok stable_few (by stab) (val_many many)]
      simp only [Bool.false_eq_true, if_false]
      rw [val_bind_ok stable_temporal (by stab) rfl, hV, val_bind_ok (Stable.lift _) (by stab) rfl,
        if_neg (show ¬ Fl.lt (.fin v) (.fin 0) = true from fun h => hv (of_decide_eq_true h)), val_bind_ok sR (by stab) hk', val_pure, r4, r6]
    refine ⟨v1.trans v2.symm, ((Ieee.val_overK q (Ieee.stable_uIVarDN q) r).2 _ _ v1 hk).trans
      (Eq.trans ?_ ((Rounded.val_overK binary64 q (Rounded.stable_uIVarDN binary64 q) r).2 _ _ v2 hk').symm)⟩
    rw [a8, r8]

/-- zero, or neither tiny nor huge -/
def Spec.Ordinary (x : ℝ) : Prop := x = 0 ∨ 1 / 2 ^ 99 ≤ |x| ∧ |x| ≤ 2 ^ 99

theorem sized_of_close {d a b : ℝ} (h : SignedClose d a b) (hd : 1 / 2 ≤ d) (hb : Ordinary b) : Sized 100 a := by
  have key : ∀ {a b : ℝ}, Close d a b → (b = 0 ∨ 1 / 2 ^ 99 ≤ b ∧ b ≤ 2 ^ 99) → a = 0 ∨ Mag 100 a := by
    rintro a b ⟨h1, h2, h3, h4⟩ h
    rcases h with rfl | ⟨h5, h6⟩
    · left; nlinarith
    · right
      refine Mag.ofBounds 100 ?_ ?_
      · have : (1 : ℝ) / 2 ^ 100 = 1 / 2 * (1 / 2 ^ 99) := by norm_num
        rw [this]
        exact (mul_le_mul hd h5 (by positivity) (by linarith)).trans h3
      · have : (2 : ℝ) ^ 100 = 2 * 2 ^ 99 := by norm_num
        rw [this]
        have := mul_le_mul_of_nonneg_right hd h1
        linarith
  rcases h with h | h
  · rcases key h (by rwa [Ordinary, abs_of_nonneg h.2.1] at hb) with h' | h'
    · exact .inl h'
    · exact .inr (by rwa [abs_of_nonneg h.1])
  · have hb0 : b ≤ 0 := by linarith [h.2.1]
    have ha0 : a ≤ 0 := by linarith [h.1]
    rcases key h (by rw [Ordinary, abs_of_nonpos hb0] at hb; exact hb.imp (fun h => by rw [h, neg_zero]) id) with h' | h'
    · exact .inl (by linarith)
    · exact .inr (by rwa [abs_of_nonpos ha0])

/-- C108 with the limits of float64: the results of a measurement with more than two exposure times, computed in float64 from its
images, neither overflow nor underflow, and they are accurate. -/
theorem C108_float64 (T : ISum) (q' q : LSQ ℝ) (hq : q.Good) (τ δ ρ η : ℝ) (hq' : q'.Near τ δ) (hτ : 0 ≤ τ)
    (hρ : 0 ≤ ρ) (hρ1 : ρ < 1) (hη : 0 ≤ η) (hη1 : η ≤ 1 / 2)
    (hacc : 3 / 4 ≤ (1 - ρ) ^ 2 * (1 - η) ^ 4 * (1 - (2 : ℝ) ^ (-53 : ℤ)) ^ 5)
    {h w : ℕ} {B : ℤ} {l : List Shot} (ok : ShotsOK h w B l) (hd : T.depth (h * w) ≤ 2 ^ 52) (r r' : Res ℝ)
    (ht : r.temporal = exactTemporal h w l) (ht' : r'.temporal = Ieee.temporal T h w l)
    (hgiven : r'.index_u_ysat = r.index_u_ysat) (many : 2 < (l.map Shot.texp).toFinset.card)
    (sat : SafeSaturation (2 ^ (-53 : ℤ)) h w l r.index_u_ysat) (i : ℤ) (hi : val indexUysat r = .ok i) (s₀ : Shot) (hs₀ : AtIndex l i s₀)
    (range : SafeRange (2 ^ (-53 : ℤ)) h w l s₀) (j : ℕ) (hj : val indexSensitivityMax r = .ok j)
    (hx : ∃ s ∈ l.take (j + 1), signalOf h w s ≠ 0) (hp : ∃ s ∈ l.take (j + 1), s.photons ≠ 0)
    (p1 : 1 / 2 ^ 100 ≤ s₀.photons) (p2 : s₀.photons ≤ 2 ^ 100)
    (small : SlopeErrors (2 ^ (-53 : ℤ)) η h w (l.take (j + 1)))
    (k m : ℝ) (hk : val (K q) r = .ok (.fin k)) (k1 : 1 / 2 ^ 99 ≤ k) (k2 : k ≤ 2 ^ 99)
    (hm : val (Results.R q) r = .ok (.fin m)) (m1 : 1 / 2 ^ 99 ≤ m) (m2 : m ≤ 2 ^ 99)
    (tol : SmallTolerance (2 ^ (-53 : ℤ)) η τ δ ρ k m h w (l.take (j + 1)))
    (v1 c1 : ℝ) (hV : BestLine (darkVars h w l) v1 c1) (hc : c1 ≤ 2 ^ 250)
    (tolC : lineErr τ δ (darkVarsErr (2 ^ (-53 : ℤ)) h w l) (darkVars h w l) v1 c1 ≤ (η * c1) ^ 2 * lever (darkVars h w l))
    (e : ℝ) (he : 1 ≤ ((1 - ρ) ^ 7 * (1 - η) ^ 14 * (1 - (2 : ℝ) ^ (-53 : ℤ)) ^ 18) * (1 + e)) (e2 : e ≤ 1 / 2) :
    (RelError e (val (Ieee.gain q') r') (val (K q) r) ∧
    RelError e (val (Ieee.resp q') r') (val (Results.R q) r) ∧
    RelError e (val (Ieee.inverseK q') r') (val (inverseK q) r) ∧
    RelError e (val (Ieee.QE q') r') (val (QE q) r) ∧
    RelError e (val (Ieee.sigmaYDark q') r') (val (sigmaYDark q) r) ∧
    RelError e (val (Ieee.sigmaD q') r') (val (sigmaD q) r) ∧
    RelError e (val (Ieee.uPMin q') r') (val (uPMin q) r) ∧
    RelError e (val (Ieee.uEMin q') r') (val (uEMin q) r) ∧
    RelError e (val (Ieee.uESat q') r') (val (uESat q) r) ∧
    RelError e (val (Ieee.SNRMax q') r') (val (SNRMax q) r) ∧
    RelError e (val (Ieee.inverseSNRMax q') r') (val (inverseSNRMax q) r) ∧
    RelError e (val (Ieee.DR q') r') (val (DR q) r)) ∧
    ∀ m₁ b₁, BestLine (darkMeans h w l) m₁ b₁ → Ordinary m₁ → Ordinary v1 →
      lineErr τ δ (darkMeansErr (2 ^ (-53 : ℤ)) h w l) (darkMeans h w l) m₁ b₁ ≤ (η * m₁) ^ 2 * spread (darkMeans h w l) →
      lineErr τ δ (darkVarsErr (2 ^ (-53 : ℤ)) h w l) (darkVars h w l) v1 c1 ≤ (η * v1) ^ 2 * spread (darkVars h w l) →
      RelErrorNum e (val (Ieee.uIMeanDN q') r') (val (uIMeanDN q) r) ∧
      RelErrorNum e (val (Ieee.uIMean q') r') (val (uIMean q) r) ∧
      RelErrorNum e (val (Ieee.uIVarDN q') r') (val (uIVarDN q) r) ∧
      RelErrorNum e (val (Ieee.uIVar q') r') (val (uIVar q) r) ∧
      (val (Ieee.uIVarDN q') r' = .ok .npnan ↔ v1 < 0) := by
  have pos : ∀ {x : ℝ} {n : ℕ}, 1 / 2 ^ n ≤ x → 0 < x := fun h => lt_of_lt_of_le (by positivity) h
  obtain ⟨t, ht0⟩ : ∃ t, t ∈ l := by obtain ⟨s, hs, -⟩ := hx; exact ⟨s, List.mem_of_mem_take hs⟩
  have h0 : 0 < h * w := (ok.bright t ht0).pos
  have hn : h * w ≤ 2 ^ 51 := by exact_mod_cast ok.size
  have ht2 : r'.temporal = Rounded.temporal binary64 T.free h w l := ht'.trans (C106_data T h0 hn hd ok.sized)
  obtain ⟨⟨a1, a2, a3, a4, a5, a6, a7, a8, a9, a10, a11, a12⟩, cur⟩ := C108_measurement binary64 T.free (by norm_num) q' q hq τ δ ρ η hq' hτ hρ hρ1
    hη (by linarith) hacc ok r r' ht ht2 hgiven many sat i hi s₀ hs₀ range j hj hx hp (pos p1) small k m hk (pos k1) hm (pos m1) tol v1 c1 hV tolC e he
  have gv : ∀ s ∈ l, |(Rounded.seriesPoint binary64 (h * w) (Rounded.entry binary64 T.free [s.dark₁, s.dark₂])).2 -
      imagesVar h w s.dark₁ s.dark₂| ≤ pairErr (2 ^ (-53 : ℤ)) h w s.dark₁ s.dark₂ :=
    fun s hs => (pair_error binary64 T.free (by norm_num) (ok.dark s hs) ok.size ok.range).2
  have gm : ∀ s ∈ l, |(Rounded.seriesPoint binary64 (h * w) (Rounded.entry binary64 T.free [s.dark₁, s.dark₂])).1 -
      imagesMean h w s.dark₁ s.dark₂| ≤ 2 ^ (-53 : ℤ) * imagesMean h w s.dark₁ s.dark₂ :=
    fun s hs => (pair_error binary64 T.free (by norm_num) (ok.dark s hs) ok.size ok.range).1
  have tx' : r'.temporal.texp = l.map Shot.texp := by rw [ht2]; rfl
  have dv' : r'.temporal.s2_ydark =
      (l.map fun s => (Rounded.seriesPoint binary64 (h * w) (Rounded.entry binary64 T.free [s.dark₁, s.dark₂])).2).map .fin := by
    rw [ht2, List.map_map]; rfl
  have dm' : r'.temporal.u_ydark =
      (l.map fun s => (Rounded.seriesPoint binary64 (h * w) (Rounded.entry binary64 T.free [s.dark₁, s.dark₂])).1).map .fin := by
    rw [ht2, List.map_map]; rfl
  have many2 : 2 < r'.temporal.texp.toFinset.card := by rw [tx']; exact many
  obtain ⟨v', c', eV', -, sV, sC⟩ := dark_fit q' q hq τ δ η hq' hτ hη (by linarith) l many _ _ _ gv v1 c1 hV
  rw [← tx', ← dv'] at eV'
  have ev : val (rawDark q') r' = .ok (.fin c') := by
    unfold rawDark
    rw [val_bind_ok stable_few (by stab) (val_many many2), val_bind_ok stable_temporal (by stab) rfl]
    simp only [Bool.false_eq_true, if_false]
    rw [eV', val_bind_ok (Stable.lift _) (by stab) rfl, val_pure]
  have hc' : c' ≤ 2 ^ 252 := by
    have h1 : (2 : ℝ) ^ 252 = 4 * 2 ^ 250 := by norm_num
    have h2 : (0 : ℝ) ≤ 2 ^ 250 := by positivity
    rw [h1]
    rcases sC tolC with h | h
    · have := mul_le_mul_of_nonneg_right (show (1 : ℝ) / 2 ≤ 1 - η by linarith) h.1
      linarith only [this, h.2.2.2, hc, h2]
    · linarith only [h.1, h2]
  obtain ⟨⟨k', ek, k3, k4⟩, eg, er, g1, g2, g3, g4, g5, g6, g7, g8, g9, g10⟩ := ieee_from_images T q' ok hd r r' ht ht' hgiven sat i hi s₀ hs₀ p1 p2
    e e2 _ _ a1 k hk k1 k2 a2 m hm m1 m2 _ ev hc'
  refine ⟨by rw [eg, er, g1, g2, g3, g4, g5, g6, g7, g8, g9, g10]; exact ⟨a1, a2, a3, a4, a5, a6, a7, a8, a9, a10, a11, a12⟩,
    fun m₁ b₁ hM om ov tolM tolV => ?_⟩
  obtain ⟨m', b', eM', -, sM, -⟩ := dark_fit q' q hq τ δ η hq' hτ hη (by linarith) l many _ _ _ gm m₁ b₁ hM
  rw [← tx', ← dm'] at eM'
  obtain ⟨c1, c2, c3, c4⟩ := ieee_currents q' r' many2 k' _ _ _ _ ek eg (Mag.ofBounds 100 k3 k4) eM' (sized_of_close (sM tolM) (by linarith) om) eV'
    (sized_of_close (sV tolV) (by linarith) ov)
  rw [c1, c2, c3, c4]
  exact cur m₁ b₁ hM tolM tolV

end Emva
