import Verif.Lemmas.IeeeMag
import Verif.Props.C105
import Verif.Props.C102Data

/-!
C106: the results of an evaluation in float64 with its limits: they neither overflow nor underflow, and they are accurate.
-/
set_option autoImplicit false
namespace Emva
open Spec Data Results Rounding

namespace Ieee
variable (q : LSQ ℝ)

theorem stable_signal : Stable signal := stable_temporal.bind fun _ => Stable.lift _
theorem stable_lastBelow (c : ℝ) : Stable (lastBelow c) := by
  have := stable_signal; unfold lastBelow; stab
theorem stable_smax : Stable indexSensitivityMax := stable_lastBelow _
theorem stable_resp : Stable (resp q) := by
  have := stable_signal; have := stable_smax; unfold resp; stab
theorem stable_gain : Stable (gain q) := by
  have := stable_signal; have := stable_smax; unfold gain; stab
theorem stable_QE : Stable (QE q) := by
  have := stable_resp q; have := stable_gain q; unfold QE; stab
theorem stable_sigmaYDark : Stable (sigmaYDark q) := by
  have := stable_rawDark q; unfold sigmaYDark; stab
theorem stable_uPMin : Stable (uPMin q) := by
  have := stable_QE q; have := stable_sigmaYDark q; have := stable_gain q; unfold uPMin; stab
theorem stable_uESat : Stable (uESat q) := by
  have := stable_QE q; have := stable_uPSat (F := ℝ); unfold uESat; stab
theorem stable_SNRMax : Stable (SNRMax q) := by
  have := stable_uESat q; unfold SNRMax; stab

end Ieee

/-- the operation of two arrays depends on the operation on their elements only -/
theorem bin_congr {α β γ : Type} {f g : α → β → γ} {A : List α} {B : List β} (h : ∀ a ∈ A, ∀ b ∈ B, f a b = g a b) :
    Np.bin f A B = Np.bin g A B := by
  have hz : ∀ (A : List α) (B : List β), (∀ a ∈ A, ∀ b ∈ B, f a b = g a b) → List.zipWith f A B = List.zipWith g A B := by
    intro A
    induction A with
    | nil => intros; rfl
    | cons a A ih =>
      intro B h
      cases B with
      | nil => rfl
      | cons b B =>
        rw [List.zipWith_cons_cons, List.zipWith_cons_cons, h a (by simp) b (by simp),
          ih B fun x hx y hy => h x (List.mem_cons_of_mem _ hx) y (List.mem_cons_of_mem _ hy)]
  unfold Np.bin
  rw [hz A B h]
  split
  · rfl
  · split
    · exact congrArg _ (List.map_congr_left fun b hb => h _ (by simp) b hb)
    · exact congrArg _ (List.map_congr_left fun a ha => h a ha _ (by simp))
    · rfl

/-- the numbers are on a grid -/
def Gridded (k m : ℤ) (L : List (Fl ℝ)) : Prop := ∀ X ∈ L, ∃ x, Rep k m X x

theorem gridded_diff {k m : ℤ} {A B : List (Fl ℝ)} (hA : Gridded k m A) (hB : Gridded k m B) (hk : k ≤ 1022) (hm : m ≤ 1022) :
    Np.bin (fun a b => rounded (a - b)) A B = Np.bin (fun a b => Rounded.rd binary64 (a - b)) A B := by
  refine bin_congr fun a ha b hb => ?_
  obtain ⟨x, hx⟩ := hA a ha
  obtain ⟨y, hy⟩ := hB b hb
  rw [(hx.sub hy hk hm).eq, hx.eq, hy.eq, Fl.fin_sub]
  rfl

/-- the elements of a difference are on a grid -/
theorem gridded_bin {k m : ℤ} {A B L : List (Fl ℝ)} (hA : Gridded k m A) (hB : Gridded k m B) (hk : k ≤ 1022) (hm : m ≤ 1022)
    (h : Np.bin (fun a b => rounded (a - b)) A B = .ok L) : Gridded k (m + 2) L := by
  have key : ∀ X ∈ L, ∃ a ∈ A, ∃ b ∈ B, X = rounded (a - b) := by
    unfold Np.bin at h
    split at h
    · have := Except.ok.inj h
      subst this
      intro X hX
      clear h
      rename_i hl
      clear hl hA hB
      induction A generalizing B with
      | nil => simp at hX
      | cons a A ih =>
        cases B with
        | nil => simp at hX
        | cons b B =>
          rw [List.zipWith_cons_cons] at hX
          rcases List.mem_cons.1 hX with rfl | hX
          · exact ⟨a, by simp, b, by simp, rfl⟩
          · obtain ⟨a', h1, b', h2, e⟩ := ih hX
            exact ⟨a', List.mem_cons_of_mem _ h1, b', List.mem_cons_of_mem _ h2, e⟩
    · split at h
      · have := Except.ok.inj h
        subst this
        intro X hX
        obtain ⟨b, hb, rfl⟩ := List.mem_map.1 hX
        exact ⟨_, by simp, b, hb, rfl⟩
      · have := Except.ok.inj h
        subst this
        intro X hX
        obtain ⟨a, ha, rfl⟩ := List.mem_map.1 hX
        exact ⟨a, ha, _, by simp, rfl⟩
      · cases h
  intro X hX
  obtain ⟨a, ha, b, hb, rfl⟩ := key X hX
  obtain ⟨x, hx⟩ := hA a ha
  obtain ⟨y, hy⟩ := hB b hb
  exact ⟨_, hx.sub hy hk hm⟩

theorem rounded_seven : ∃ c, rounded (.fin (7 / 10 : ℝ)) = .fin c ∧ Rounded.rd binary64 (.fin (7 / 10)) = .fin c ∧ Tame 56 4 c := by
  have h1 : Tame 0 3 (7 : ℝ) := ⟨⟨7, by norm_num⟩, by norm_num⟩
  obtain ⟨a1, a2, a3⟩ := h1.div (j := 3) (m' := 4) (y := 10) (by norm_num) (by norm_num)
  refine ⟨b64 (7 / 10), ?_, rfl, a3.weaken (by norm_num) (by norm_num)⟩
  exact f64_eq (a1.imp_right fun h => (two_zpow_mono (by norm_num)).trans h) (a2.trans (two_zpow_mono (by norm_num)))

section
variable {r : Res ℝ} (hy : Gridded 105 65 r.temporal.u_y) (hd : Gridded 105 65 r.temporal.u_ydark)
include hy hd

theorem ieee_signal : val Ieee.signal r = val (Rounded.signal binary64) r := by
  unfold Ieee.signal Rounded.signal
  rw [val_bind_ok stable_temporal (by stab) rfl, val_bind_ok stable_temporal (by stab) rfl, val_lift, val_lift]
  exact gridded_diff hy hd (by norm_num) (by norm_num)

theorem ieee_signal_grid {Y : List (Fl ℝ)} (h : val Ieee.signal r = .ok Y) : Gridded 105 67 Y := by
  unfold Ieee.signal at h
  rw [val_bind_ok stable_temporal (by stab) rfl, val_lift] at h
  exact gridded_bin hy hd (by norm_num) (by norm_num) h

theorem ieee_lastBelow (v : ℝ) (hv : ∃ c, rounded (.fin v) = .fin c ∧ Rounded.rd binary64 (.fin v) = .fin c ∧ Tame 60 4 c) :
    val (Ieee.lastBelow v) r = val (Rounded.lastBelow binary64 v) r := by
  have s1 := Ieee.stable_signal
  have s2 := Rounded.stable_signal binary64
  unfold Ieee.lastBelow Rounded.lastBelow
  rw [val_bind s1 (by stab), val_bind s2 (by stab), ← ieee_signal hy hd]
  cases hY : val Ieee.signal r with
  | error e => rfl
  | ok Y =>
    have hg := ieee_signal_grid hy hd hY
    show val _ r = val _ r
    rw [val_bind Stable.indexUysat (by stab), val_bind Stable.indexUysat (by stab)]
    cases hi : val (indexUysat : M ℝ ℤ) r with
    | error e => rfl
    | ok i =>
      show val _ r = val _ r
      rw [val_bind (Stable.lift _) (by stab), val_bind (Stable.lift _) (by stab), val_lift]
      cases hx : Np.idx Y i with
      | error e => rfl
      | ok X =>
        have hm : X ∈ Y := by
          rcases (Np.idx_ok_iff Y i X).1 hx with ⟨-, h⟩ | ⟨-, -, h⟩ <;> exact List.mem_of_getElem? h
        obtain ⟨x, rx⟩ := hg X hm
        obtain ⟨c, c1, c2, c3⟩ := hv
        have e : rounded (rounded (.fin v) * X) = Rounded.rd binary64 (Rounded.rd binary64 (.fin v) * X) := by
          have rc : Rep 60 4 (rounded (.fin v)) c := ⟨c1, c3⟩
          rw [(rc.mul rx (by norm_num) (by norm_num)).eq, c2, rx.eq, Fl.fin_mul]
          rfl
        show val _ r = val _ r
        rw [e]

theorem ieee_smax : val Ieee.indexSensitivityMax r = val (Rounded.indexSensitivityMax binary64) r := by
  obtain ⟨c, c1, c2, c3⟩ := rounded_seven
  exact ieee_lastBelow hy hd _ ⟨c, c1, c2, c3.weaken (by norm_num) le_rfl⟩

theorem ieee_resp (q : LSQ ℝ) : val (Ieee.resp q) r = val (Rounded.resp binary64 q) r := by
  have s1 := Ieee.stable_signal
  have s2 := Rounded.stable_signal binary64
  have s3 := Ieee.stable_smax
  have s4 := Rounded.stable_smax binary64
  unfold Ieee.resp Rounded.resp
  rw [val_bind s1 (by stab), val_bind s2 (by stab), ← ieee_signal hy hd]
  congr 1; funext Y
  rw [val_bind stable_photons (by stab), val_bind stable_photons (by stab)]
  congr 1; funext X
  rw [val_bind stable_smin (by stab), val_bind stable_smin (by stab)]
  congr 1; funext i
  rw [val_bind s3 (by stab), val_bind s4 (by stab), ieee_smax hy hd]

theorem ieee_gain (hy2 : Gridded 315 252 r.temporal.s2_y) (hd2 : Gridded 315 252 r.temporal.s2_ydark) (q : LSQ ℝ) :
    val (Ieee.gain q) r = val (Rounded.gain binary64 q) r := by
  have s1 := Ieee.stable_signal
  have s2 := Rounded.stable_signal binary64
  have s3 := Ieee.stable_smax
  have s4 := Rounded.stable_smax binary64
  unfold Ieee.gain Rounded.gain
  rw [val_bind s1 (by stab), val_bind s2 (by stab), ← ieee_signal hy hd]
  congr 1; funext Y
  rw [val_bind_ok stable_temporal (by stab) rfl, val_bind_ok stable_temporal (by stab) rfl,
    gridded_diff hy2 hd2 (by norm_num) (by norm_num)]
  rw [val_bind (Stable.lift _) (by stab), val_bind (Stable.lift _) (by stab)]
  congr 1; funext X
  rw [val_bind stable_smin (by stab), val_bind stable_smin (by stab)]
  congr 1; funext i
  rw [val_bind s3 (by stab), val_bind s4 (by stab), ieee_smax hy hd]

end

/-- the results with and without the limits have the same finite value -/
def Both (a : ℤ) (x y : Except PyErr (Fl ℝ)) : Prop := ∃ z, x = .ok (.fin z) ∧ y = .ok (.fin z) ∧ Mag a z

theorem Both.of {a : ℤ} {X Y : Fl ℝ} {z : ℝ} (h : Same a X Y z) : Both a (.ok X) (.ok Y) := ⟨z, by rw [h.left], by rw [h.right], h.mag⟩

theorem mag_hundred : Mag 7 100 := ⟨by norm_num, by norm_num⟩

set_option maxHeartbeats 1000000 in
/-- from gain, responsivity, dark variance and saturation on, nothing overflows -/
theorem ieee_results (q : LSQ ℝ) (r : Res ℝ) (k m p v : ℝ) (hk : val (Ieee.gain q) r = .ok (.fin k))
    (hk' : val (Rounded.gain binary64 q) r = .ok (.fin k)) (mk : Mag 100 k) (hm : val (Ieee.resp q) r = .ok (.fin m))
    (hm' : val (Rounded.resp binary64 q) r = .ok (.fin m)) (mm : Mag 100 m) (hp : val uPSat r = .ok (.fin p)) (mp : Mag 100 p)
    (hv : val (rawDark q) r = .ok (.fin v)) (mv : v ≤ 2 ^ (252 : ℤ)) :
    Both 102 (val (Ieee.inverseK q) r) (val (Rounded.inverseK binary64 q) r) ∧
    Both 210 (val (Ieee.QE q) r) (val (Rounded.QE binary64 q) r) ∧
    Both 253 (val (Ieee.sigmaYDark q) r) (val (Rounded.sigmaYDark binary64 q) r) ∧
    Both 700 (val (Ieee.sigmaD q) r) (val (Rounded.sigmaD binary64 q) r) ∧
    Both 600 (val (Ieee.uPMin q) r) (val (Rounded.uPMin binary64 q) r) ∧
    Both 900 (val (Ieee.uEMin q) r) (val (Rounded.uEMin binary64 q) r) ∧
    Both 330 (val (Ieee.uESat q) r) (val (Rounded.uESat binary64 q) r) ∧
    Both 331 (val (Ieee.SNRMax q) r) (val (Rounded.SNRMax binary64 q) r) ∧
    Both 350 (val (Ieee.inverseSNRMax q) r) (val (Rounded.inverseSNRMax binary64 q) r) ∧
    Both 800 (val (Ieee.DR q) r) (val (Rounded.DR binary64 q) r) := by
  have g1 := Ieee.stable_gain q
  have g2 := Rounded.stable_gain binary64 q
  have r1 := Ieee.stable_resp q
  have r2 := Rounded.stable_resp binary64 q
  have q1 := Ieee.stable_QE q
  have q2 := Rounded.stable_QE binary64 q
  have d1 := Ieee.stable_sigmaYDark q
  have d2 := Rounded.stable_sigmaYDark binary64 q
  have p1 := Ieee.stable_uPMin q
  have p2 := Rounded.stable_uPMin binary64 q
  have e1 := Ieee.stable_uESat q
  have e2 := Rounded.stable_uESat binary64 q
  have n1 := Ieee.stable_SNRMax q
  have n2 := Rounded.stable_SNRMax binary64 q
  have hw := stable_rawDark q
  have ps := stable_uPSat (F := ℝ)
  have K := Same.of mk
  have M := Same.of mm
  have P := Same.of mp
  have H := Same.of mag_hundred
  have one : Same 0 (.fin 1) (.fin 1) 1 := Same.of ⟨by norm_num, by norm_num⟩
  have half : Same 1 (.fin (1 / 2)) (.fin (1 / 2)) (1 / 2) := Same.of ⟨by norm_num, by norm_num⟩
  -- inverse K
  have i1 := (one.div K).rnd (by norm_num)
  have b1 : Both 102 (val (Ieee.inverseK q) r) (val (Rounded.inverseK binary64 q) r) := by
    unfold Ieee.inverseK Rounded.inverseK
    rw [val_bind_ok g1 (by stab) hk, val_bind_ok g2 (by stab) hk']
    exact Both.of (i1.weaken (by norm_num))
  -- QE
  have b2 : Both 210 (val (Ieee.QE q) r) (val (Rounded.QE binary64 q) r) := by
    unfold Ieee.QE Rounded.QE
    rw [val_bind_ok r1 (by stab) hm, val_bind_ok g1 (by stab) hk, val_bind_ok r2 (by stab) hm', val_bind_ok g2 (by stab) hk']
    exact Both.of (((((H.mul M).rnd (by norm_num)).div K).rnd (by norm_num)).weaken (by norm_num))
  -- sigma_y_dark
  have c1 : rounded (.fin (24 / 100 : ℝ)) = .fin (b64 (24 / 100)) :=
    (show Mag 3 (24 / 100) from ⟨by norm_num, by norm_num⟩).f64_eq (by norm_num)
  have c2 : Rounded.rd binary64 (.fin (24 / 100 : ℝ)) = .fin (b64 (24 / 100)) := rfl
  obtain ⟨c3, c4⟩ := b64_near (show (0 : ℝ) ≤ 24 / 100 by norm_num)
  obtain ⟨w, hw1, hw2, hw3⟩ : ∃ w, (if Fl.lt (.fin v) (.fin (b64 (24 / 100))) then .fin (b64 (24 / 100)) else .fin v) = Fl.fin w ∧
      23 / 100 ≤ w ∧ w ≤ 2 ^ (252 : ℤ) := by
    by_cases h : v < b64 (24 / 100)
    · exact ⟨_, by rw [Fl.lt_fin, decide_eq_true h, if_pos rfl], by linarith, le_trans (by linarith : _ ≤ (2 : ℝ) ^ (1 : ℤ)) (two_zpow_mono (by norm_num))⟩
    · exact ⟨v, by rw [Fl.lt_fin, decide_eq_false h, if_neg (by simp)], by linarith, mv⟩
  have mw : Mag 252 w := ⟨(two_zpow_mono (show (-252 : ℤ) ≤ -3 by norm_num)).trans ((by norm_num : (2 : ℝ) ^ (-3 : ℤ) ≤ 23 / 100).trans hw2), hw3⟩
  have D := ((Same.of mw).sqrt (by norm_num)).rnd (by norm_num)
  have t1 : val (Ieee.sigmaYDark q) r = .ok (rounded (Fl.sqrt (.fin w))) := by
    unfold Ieee.sigmaYDark
    rw [val_bind_ok hw (by stab) hv, c1, val_pure, hw1]
  have t2 : val (Rounded.sigmaYDark binary64 q) r = .ok (Rounded.rd binary64 (Fl.sqrt (.fin w))) := by
    unfold Rounded.sigmaYDark
    rw [val_bind_ok hw (by stab) hv, c2, val_pure, hw1]
  have b3 : Both 253 (val (Ieee.sigmaYDark q) r) (val (Rounded.sigmaYDark binary64 q) r) := by
    rw [t1, t2]; exact Both.of D
  obtain ⟨s, s1, s2, ms⟩ := b3
  have hs : 45 / 100 ≤ s := by
    have e : s = b64 (Real.sqrt w) := by
      have := Except.ok.inj (s1.symm.trans (t1.trans (congrArg _ D.left)))
      exact Fl.fin_injective this
    have h1 : (47 / 100 : ℝ) ≤ Real.sqrt w := Real.le_sqrt_of_sq_le (le_trans (by norm_num) hw2)
    have := (b64_near (Real.sqrt_nonneg w)).1
    rw [e]; linarith
  have S := Same.of ms
  -- sigma_d
  have b4 : Both 700 (val (Ieee.sigmaD q) r) (val (Rounded.sigmaD binary64 q) r) := by
    have sq : Same 507 (rounded (Fl.sq (.fin s))) (Rounded.rd binary64 (Fl.sq (.fin s))) (b64 (s * s)) := (S.mul S).rnd (by norm_num)
    have l1 : rounded (.fin (1 / 12 : ℝ)) = .fin (b64 (1 / 12)) :=
      (show Mag 4 (1 / 12) from ⟨by norm_num, by norm_num⟩).f64_eq (by norm_num)
    have l2 : Rounded.rd binary64 (.fin (1 / 12 : ℝ)) = .fin (b64 (1 / 12)) := rfl
    obtain ⟨l3, l4⟩ := b64_near (show (0 : ℝ) ≤ 1 / 12 by norm_num)
    have hss : 20 / 100 ≤ s * s := by nlinarith
    have h1 := (b64_near (show 0 ≤ s * s by linarith)).1
    have df : Same 507 (rounded (Fl.sq (.fin s)) - rounded (.fin (1 / 12))) (Rounded.rd binary64 (Fl.sq (.fin s)) - Rounded.rd binary64 (.fin (1 / 12)))
        (b64 (s * s) - b64 (1 / 12)) := by
      refine ⟨by rw [sq.left, l1, Fl.fin_sub], by rw [sq.right, l2, Fl.fin_sub], ?_, ?_⟩
      · exact (two_zpow_mono (show (-507 : ℤ) ≤ -4 by norm_num)).trans (le_trans (by norm_num) (show (1 / 10 : ℝ) ≤ _ by linarith))
      · exact le_trans (by linarith) sq.mag.le
    have := (((((df.rnd (by norm_num)).sqrt (by norm_num)).rnd (by norm_num)).div K).rnd (by norm_num))
    unfold Ieee.sigmaD Rounded.sigmaD
    rw [val_bind_ok d1 (by stab) s1, val_bind_ok g1 (by stab) hk, val_bind_ok d2 (by stab) s2, val_bind_ok g2 (by stab) hk']
    exact Both.of (this.weaken (by norm_num))
  -- u_p_min
  obtain ⟨e, y1, y2, me⟩ := b2
  have E := Same.of me
  have b5 : Both 600 (val (Ieee.uPMin q) r) (val (Rounded.uPMin binary64 q) r) := by
    have x1 := (H.div E).rnd (by norm_num)
    have x2 := (((S.div K).rnd (by norm_num)).add (half.weaken (by norm_num))).rnd (by norm_num)
    unfold Ieee.uPMin Rounded.uPMin
    rw [val_bind_ok q1 (by stab) y1, val_bind_ok d1 (by stab) s1, val_bind_ok g1 (by stab) hk,
      val_bind_ok q2 (by stab) y2, val_bind_ok d2 (by stab) s2, val_bind_ok g2 (by stab) hk']
    exact Both.of (((x1.mul x2).rnd (by norm_num)).weaken (by norm_num))
  obtain ⟨z, z1, z2, mz⟩ := b5
  have Z := Same.of mz
  have b6 : Both 900 (val (Ieee.uEMin q) r) (val (Rounded.uEMin binary64 q) r) := by
    unfold Ieee.uEMin Rounded.uEMin
    rw [val_bind_ok q1 (by stab) y1, val_bind_ok p1 (by stab) z1, val_bind_ok q2 (by stab) y2, val_bind_ok p2 (by stab) z2]
    exact Both.of (((((E.mul Z).rnd (by norm_num)).div H).rnd (by norm_num)).weaken (by norm_num))
  have b7 : Both 330 (val (Ieee.uESat q) r) (val (Rounded.uESat binary64 q) r) := by
    unfold Ieee.uESat Rounded.uESat
    rw [val_bind_ok q1 (by stab) y1, val_bind_ok ps (by stab) hp, val_bind_ok q2 (by stab) y2, val_bind_ok ps (by stab) hp]
    exact Both.of (((((E.mul P).rnd (by norm_num)).div H).rnd (by norm_num)).weaken (by norm_num))
  obtain ⟨x, x1, x2, mx⟩ := b7
  have b8 : Both 331 (val (Ieee.SNRMax q) r) (val (Rounded.SNRMax binary64 q) r) := by
    unfold Ieee.SNRMax Rounded.SNRMax
    rw [val_bind_ok e1 (by stab) x1, val_bind_ok e2 (by stab) x2]
    exact Both.of ((((Same.of mx).sqrt (by norm_num)).rnd (by norm_num)).weaken (by norm_num))
  obtain ⟨n, u1, u2, mn⟩ := b8
  have b9 : Both 350 (val (Ieee.inverseSNRMax q) r) (val (Rounded.inverseSNRMax binary64 q) r) := by
    unfold Ieee.inverseSNRMax Rounded.inverseSNRMax
    rw [val_bind_ok n1 (by stab) u1, val_bind_ok n2 (by stab) u2]
    exact Both.of (((H.div (Same.of mn)).rnd (by norm_num)).weaken (by norm_num))
  have b10 : Both 800 (val (Ieee.DR q) r) (val (Rounded.DR binary64 q) r) := by
    unfold Ieee.DR Rounded.DR
    rw [val_bind_ok ps (by stab) hp, val_bind_ok p1 (by stab) z1, val_bind_ok ps (by stab) hp, val_bind_ok p2 (by stab) z2]
    exact Both.of (((P.div Z).rnd (by norm_num)).weaken (by norm_num))
  exact ⟨b1, ⟨e, y1, y2, me⟩, ⟨s, s1, s2, ms⟩, b4, ⟨z, z1, z2, mz⟩, b6, ⟨x, x1, x2, mx⟩, ⟨n, u1, u2, mn⟩, b9, b10⟩

/-- the images of the points have the size `h × w` -/
def Spec.ShotsSized (h w : ℕ) (l : List Shot) : Prop :=
  ∀ s ∈ l, ∀ i ∈ [s.bright₁, s.bright₂, s.dark₁, s.dark₂], i.h = h ∧ i.w = w

theorem Spec.ShotsOK.sized {h w : ℕ} {B : ℤ} {l : List Shot} (ok : ShotsOK h w B l) : ShotsSized h w l := by
  intro s hs i hi
  have b := ok.bright s hs
  have d := ok.dark s hs
  simp only [List.mem_cons, List.not_mem_nil, or_false] at hi
  rcases hi with rfl | rfl | rfl | rfl
  exacts [⟨b.ah, b.aw⟩, ⟨b.bh, b.bw⟩, ⟨d.ah, d.aw⟩, ⟨d.bh, d.bw⟩]

section
variable (T : ISum) {h w : ℕ} (h0 : 0 < h * w) (hn : h * w ≤ 2 ^ 51) (hd : T.depth (h * w) ≤ 2 ^ 52) {l : List Shot}
  (hs : ShotsSized h w l)
include h0 hn hd hs

theorem shots_rep (s : Shot) (m : s ∈ l) :
    (Rep 105 65 (Ieee.seriesPoint (h * w) (Ieee.entry T [s.bright₁, s.bright₂])).1 (Rounded.seriesPoint binary64 (h * w) (Rounded.entry binary64 T.free [s.bright₁, s.bright₂])).1 ∧
    Rep 315 252 (Ieee.seriesPoint (h * w) (Ieee.entry T [s.bright₁, s.bright₂])).2 (Rounded.seriesPoint binary64 (h * w) (Rounded.entry binary64 T.free [s.bright₁, s.bright₂])).2) ∧
    Rep 105 65 (Ieee.seriesPoint (h * w) (Ieee.entry T [s.dark₁, s.dark₂])).1 (Rounded.seriesPoint binary64 (h * w) (Rounded.entry binary64 T.free [s.dark₁, s.dark₂])).1 ∧
    Rep 315 252 (Ieee.seriesPoint (h * w) (Ieee.entry T [s.dark₁, s.dark₂])).2 (Rounded.seriesPoint binary64 (h * w) (Rounded.entry binary64 T.free [s.dark₁, s.dark₂])).2 := by
  have e : ∀ i ∈ [s.bright₁, s.bright₂, s.dark₁, s.dark₂], i.size = h * w := fun i hi => by
    rw [Img.size, (hs s m i hi).1, (hs s m i hi).2]
  have e1 := e s.bright₁ (by simp)
  have e2 := e s.bright₂ (by simp)
  have e3 := e s.dark₁ (by simp)
  have e4 := e s.dark₂ (by simp)
  exact ⟨seriesPoint_rep T _ _ (h * w) (by rwa [e1]) (by rwa [e2]) (by rw [e1]; omega) (by rw [e2]; omega) (by rwa [e1]) (by rwa [e2]) h0 hn,
    seriesPoint_rep T _ _ (h * w) (by rwa [e3]) (by rwa [e4]) (by rw [e3]; omega) (by rw [e4]; omega) (by rwa [e3]) (by rwa [e4]) h0 hn⟩

/-- C106, data: the temporal data of any measurement in float64 are those of the arithmetic without limits. -/
theorem C106_data : Ieee.temporal T h w l = Rounded.temporal binary64 T.free h w l := by
  have e := shots_rep T h0 hn hd hs
  unfold Ieee.temporal Rounded.temporal
  congr 1
  · exact List.map_congr_left fun s m => (e s m).1.1.eq
  · exact List.map_congr_left fun s m => (e s m).1.2.eq
  · exact List.map_congr_left fun s m => (e s m).2.1.eq
  · exact List.map_congr_left fun s m => (e s m).2.2.eq

theorem shots_gridded : Gridded 105 65 (Ieee.temporal T h w l).u_y ∧ Gridded 105 65 (Ieee.temporal T h w l).u_ydark ∧
    Gridded 315 252 (Ieee.temporal T h w l).s2_y ∧ Gridded 315 252 (Ieee.temporal T h w l).s2_ydark := by
  have e := shots_rep T h0 hn hd hs
  refine ⟨fun X hX => ?_, fun X hX => ?_, fun X hX => ?_, fun X hX => ?_⟩ <;> obtain ⟨s, m, rfl⟩ := List.mem_map.1 hX
  exacts [⟨_, (e s m).1.1⟩, ⟨_, (e s m).2.1⟩, ⟨_, (e s m).1.2⟩, ⟨_, (e s m).2.2⟩]

/-- C106, fits: the sensitivity range, the responsivity and the gain of any measurement, whatever the solver does. -/
theorem C106_fits (q : LSQ ℝ) (r : Res ℝ) (ht : r.temporal = Ieee.temporal T h w l) :
    val Ieee.indexSensitivityMax r = val (Rounded.indexSensitivityMax binary64) r ∧
    val (Ieee.resp q) r = val (Rounded.resp binary64 q) r ∧
    val (Ieee.gain q) r = val (Rounded.gain binary64 q) r := by
  obtain ⟨a, b, c, d⟩ := shots_gridded T h0 hn hd hs
  rw [← ht] at a b c d
  exact ⟨ieee_smax a b, ieee_resp a b q, ieee_gain a b c d q⟩

/-- C106, results: if gain, responsivity and saturation are between `2^-100` and `2^100` (about `10^-30` and `10^30`) and the dark
variance is at most `2^252`, every result is finite, positive, and that of the arithmetic without limits. -/
theorem C106_results (q : LSQ ℝ) (r : Res ℝ) (ht : r.temporal = Ieee.temporal T h w l) (k m p v : ℝ)
    (hk : val (Ieee.gain q) r = .ok (.fin k)) (k1 : 1 / 2 ^ 100 ≤ k) (k2 : k ≤ 2 ^ 100)
    (hm : val (Ieee.resp q) r = .ok (.fin m)) (m1 : 1 / 2 ^ 100 ≤ m) (m2 : m ≤ 2 ^ 100)
    (hp : val uPSat r = .ok (.fin p)) (p1 : 1 / 2 ^ 100 ≤ p) (p2 : p ≤ 2 ^ 100)
    (hv : val (rawDark q) r = .ok (.fin v)) (v2 : v ≤ 2 ^ 252) :
    ∀ xy ∈ [(val (Ieee.inverseK q) r, val (Rounded.inverseK binary64 q) r), (val (Ieee.QE q) r, val (Rounded.QE binary64 q) r),
      (val (Ieee.sigmaYDark q) r, val (Rounded.sigmaYDark binary64 q) r), (val (Ieee.sigmaD q) r, val (Rounded.sigmaD binary64 q) r),
      (val (Ieee.uPMin q) r, val (Rounded.uPMin binary64 q) r), (val (Ieee.uEMin q) r, val (Rounded.uEMin binary64 q) r),
      (val (Ieee.uESat q) r, val (Rounded.uESat binary64 q) r), (val (Ieee.SNRMax q) r, val (Rounded.SNRMax binary64 q) r),
      (val (Ieee.inverseSNRMax q) r, val (Rounded.inverseSNRMax binary64 q) r), (val (Ieee.DR q) r, val (Rounded.DR binary64 q) r)],
      ∃ z, 0 < z ∧ xy.1 = .ok (.fin z) ∧ xy.2 = .ok (.fin z) := by
  obtain ⟨-, er, eg⟩ := C106_fits T h0 hn hd hs q r ht
  obtain ⟨b1, b2, b3, b4, b5, b6, b7, b8, b9, b10⟩ := ieee_results q r k m p v hk (eg ▸ hk) (Mag.ofBounds 100 k1 k2) hm (er ▸ hm)
    (Mag.ofBounds 100 m1 m2) hp (Mag.ofBounds 100 p1 p2) hv (by exact_mod_cast v2)
  have fin : ∀ {a : ℤ} {x y : Except PyErr (Fl ℝ)}, Both a x y → ∃ z, 0 < z ∧ x = .ok (.fin z) ∧ y = .ok (.fin z) := by
    rintro a x y ⟨z, h1, h2, h3⟩
    exact ⟨z, h3.pos, h1, h2⟩
  simp only [List.forall_mem_cons, List.not_mem_nil, false_imp_iff, implies_true, and_true]
  exact ⟨fin b1, fin b2, fin b3, fin b4, fin b5, fin b6, fin b7, fin b8, fin b9, fin b10⟩

end

/-- C106, the limits are real: the inverse of a gain below `2^-1025` is infinite in float64, and finite without the limits. -/
theorem C106_overflow (q : LSQ ℝ) (r : Res ℝ) (k : ℝ) (hk : val (Ieee.gain q) r = .ok (.fin k)) (k0 : 0 < k) (k1 : k ≤ 2 ^ (-1025 : ℤ)) :
    val (Ieee.inverseK q) r = .ok (.inf false) := by
  unfold Ieee.inverseK
  rw [val_bind_ok (Ieee.stable_gain q) (by stab) hk, val_pure, Fl.fin_div k0.ne']
  have hx : (2 : ℝ) ^ (1025 : ℤ) ≤ 1 / k := by
    rw [le_div_iff₀ k0]
    refine (mul_le_mul_of_nonneg_left k1 (two_pos_zpow _).le).trans ?_
    rw [← zpow_add₀ (by norm_num)]
    norm_num
  set x := 1 / k
  have x0 : 0 < x := (two_pos_zpow _).trans_le hx
  have e : ulp64 x = ulp x := by
    refine max_eq_left ?_
    unfold ulp
    refine two_zpow_mono ?_
    have : 1025 ≤ Int.log 2 |x| := by
      refine (Int.zpow_le_iff_le_log one_lt_two (abs_pos.2 x0.ne')).1 ?_
      push_cast
      rwa [abs_of_pos x0]
    omega
  have e2 : (nearestEven (x / ulp64 x) : ℝ) * ulp64 x = b64 x := by rw [e, b64, if_neg x0.ne']
  show Except.ok (f64 x) = _
  unfold f64
  rw [e2, if_pos, decide_eq_false (not_lt.2 x0.le)]
  refine le_trans ?_ (le_abs_self _)
  refine le_trans ?_ (b64_near x0.le).1
  have h2 : (2 : ℝ) ^ (1025 : ℤ) = 2 ^ (1024 : ℤ) * 2 := by rw [← zpow_add_one₀ (by norm_num)]; norm_num
  rw [h2] at hx
  have h3 := two_pos_zpow 1024
  generalize (2 : ℝ) ^ (1024 : ℤ) = z at *
  linarith only [hx, h3]

/-- the results in float64 are those of the arithmetic without limits, if gain and responsivity of that arithmetic are near to ones of
moderate size -/
theorem ieee_from_images (T : ISum) (q' : LSQ ℝ) {h w : ℕ} {B : ℤ} {l : List Shot} (ok : ShotsOK h w B l) (hd : T.depth (h * w) ≤ 2 ^ 52)
    (r r' : Res ℝ) (ht : r.temporal = exactTemporal h w l) (ht' : r'.temporal = Ieee.temporal T h w l)
    (hgiven : r'.index_u_ysat = r.index_u_ysat)
    (sat : SafeSaturation (2 ^ (-53 : ℤ)) h w l r.index_u_ysat) (i : ℤ) (hi : val indexUysat r = .ok i) (s₀ : Shot) (hs₀ : AtIndex l i s₀)
    (p1 : 1 / 2 ^ 100 ≤ s₀.photons) (p2 : s₀.photons ≤ 2 ^ 100) (e : ℝ) (e2 : e ≤ 1 / 2) (x y : Except PyErr (Fl ℝ))
    (a1 : RelError e (val (Rounded.gain binary64 q') r') x) (k : ℝ) (hk : x = .ok (.fin k)) (k1 : 1 / 2 ^ 99 ≤ k) (k2 : k ≤ 2 ^ 99)
    (a2 : RelError e (val (Rounded.resp binary64 q') r') y) (m : ℝ) (hm : y = .ok (.fin m)) (m1 : 1 / 2 ^ 99 ≤ m) (m2 : m ≤ 2 ^ 99)
    (v : ℝ) (ev : val (rawDark q') r' = .ok (.fin v)) (v2 : v ≤ 2 ^ 252) :
    (∃ k', val (Ieee.gain q') r' = .ok (.fin k') ∧ 1 / 2 ^ 100 ≤ k' ∧ k' ≤ 2 ^ 100) ∧
    val (Ieee.gain q') r' = val (Rounded.gain binary64 q') r' ∧
    val (Ieee.resp q') r' = val (Rounded.resp binary64 q') r' ∧
    val (Ieee.inverseK q') r' = val (Rounded.inverseK binary64 q') r' ∧
    val (Ieee.QE q') r' = val (Rounded.QE binary64 q') r' ∧
    val (Ieee.sigmaYDark q') r' = val (Rounded.sigmaYDark binary64 q') r' ∧
    val (Ieee.sigmaD q') r' = val (Rounded.sigmaD binary64 q') r' ∧
    val (Ieee.uPMin q') r' = val (Rounded.uPMin binary64 q') r' ∧
    val (Ieee.uEMin q') r' = val (Rounded.uEMin binary64 q') r' ∧
    val (Ieee.uESat q') r' = val (Rounded.uESat binary64 q') r' ∧
    val (Ieee.SNRMax q') r' = val (Rounded.SNRMax binary64 q') r' ∧
    val (Ieee.inverseSNRMax q') r' = val (Rounded.inverseSNRMax binary64 q') r' ∧
    val (Ieee.DR q') r' = val (Rounded.DR binary64 q') r' := by
  have hm₀ : s₀ ∈ l := by rcases hs₀ with ⟨-, h⟩ | ⟨-, -, h⟩ <;> exact List.mem_of_getElem? h
  have h0 : 0 < h * w := (ok.bright s₀ hm₀).pos
  have hn : h * w ≤ 2 ^ 51 := by exact_mod_cast ok.size
  have sz := ok.sized
  have ht2 : r'.temporal = Rounded.temporal binary64 T.free h w l := ht'.trans (C106_data T h0 hn hd sz)
  obtain ⟨-, er, eg⟩ := C106_fits T h0 hn hd sz q' r' ht'
  -- gain and responsivity are in the range
  have bound : ∀ {x y : Except PyErr (Fl ℝ)} {b : ℝ}, RelError e x y → y = .ok (.fin b) → 1 / 2 ^ 99 ≤ b → b ≤ 2 ^ 99 →
      ∃ a, x = .ok (.fin a) ∧ 1 / 2 ^ 100 ≤ a ∧ a ≤ 2 ^ 100 := by
    rintro x y b ⟨a, b', h1, h2, h3, h4⟩ h5 h6 h7
    have : b' = b := Fl.fin_injective (Except.ok.inj (h2.symm.trans h5))
    subst this
    have h8 := abs_le.1 (h4.trans (mul_le_mul_of_nonneg_right e2 h3))
    refine ⟨a, h1, ?_, ?_⟩
    · have : (1 : ℝ) / 2 ^ 100 = 1 / 2 ^ 99 / 2 := by norm_num
      rw [this]; linarith [h8.1]
    · have : (2 : ℝ) ^ 100 = 2 * 2 ^ 99 := by norm_num
      rw [this]; linarith [h8.2]
  obtain ⟨k', ek, k3, k4⟩ := bound a1 hk k1 k2
  obtain ⟨m', em, m3, m4⟩ := bound a2 hm m1 m2
  -- the saturation and the dark variance
  have hs' : ∃ p, val uPSat r' = .ok (.fin p) ∧ p = s₀.photons := by
    have hi' : val indexUysat r' = .ok i := by
      rw [← hi]
      exact usat_same l _ (fun s => (Rounded.seriesPoint binary64 (h * w) (Rounded.entry binary64 T.free [s.bright₁, s.bright₂])).2) _
        (fun s hs => (pair_error binary64 T.free (by norm_num) (ok.bright s hs) ok.size ok.range).2) r r'
        (by rw [ht, (exactTemporal_lists ok).2.2.1]) (by rw [ht2, List.map_map]; rfl) hgiven sat
    refine ⟨_, ?_, rfl⟩
    unfold uPSat
    rw [val_bind_ok stable_temporal (by stab) rfl, val_bind_ok Stable.indexUysat (by stab) hi',
      val_bind_ok (x := lift (Np.idx _ _)) (a := s₀.photons) (Stable.lift _) (by stab)
        (by rw [val_lift, ht2]; show Np.idx (l.map Shot.photons) i = _; rw [Np.idx_map, (Np.idx_ok_iff l i s₀).2 hs₀]; rfl)]
    rfl
  obtain ⟨p, ep, rfl⟩ := hs'
  have all := C106_results T h0 hn hd sz q' r' ht' k' m' _ _ (eg.trans ek) k3 k4 (er.trans em) m3 m4 ep p1 p2 ev v2
  simp only [List.forall_mem_cons, List.not_mem_nil, false_imp_iff, implies_true, and_true] at all
  have eqs : ∀ {x y : Except PyErr (Fl ℝ)}, (∃ z, 0 < z ∧ x = .ok (.fin z) ∧ y = .ok (.fin z)) → x = y := by
    rintro x y ⟨z, -, h1, h2⟩; rw [h1, h2]
  obtain ⟨c1, c2, c3, c4, c5, c6, c7, c8, c9, c10⟩ := all
  exact ⟨⟨k', eg.trans ek, k3, k4⟩, eg, er, eqs c1, eqs c2, eqs c3, eqs c4, eqs c5, eqs c6, eqs c7, eqs c8, eqs c9, eqs c10⟩

/-- C106, accuracy: `C102_measurement` for the numbers of the computer. -/
theorem C106_measurement (T : ISum) (q' q : LSQ ℝ) (hq : q.Good) (τ δ ρ η : ℝ) (hq' : q'.Near τ δ) (hτ : 0 ≤ τ)
    (hρ : 0 ≤ ρ) (hρ1 : ρ < 1) (hη : 0 ≤ η) (hη1 : η < 1)
    (hacc : 3 / 4 ≤ (1 - ρ) ^ 2 * (1 - η) ^ 4 * (1 - (2 : ℝ) ^ (-53 : ℤ)) ^ 5)
    {h w : ℕ} {B : ℤ} {l : List Shot} (ok : ShotsOK h w B l) (hd : T.depth (h * w) ≤ 2 ^ 52) (r r' : Res ℝ)
    (ht : r.temporal = exactTemporal h w l) (ht' : r'.temporal = Ieee.temporal T h w l)
    (hgiven : r'.index_u_ysat = r.index_u_ysat) (few : (l.map Shot.texp).toFinset.card ≤ 2)
    (sat : SafeSaturation (2 ^ (-53 : ℤ)) h w l r.index_u_ysat) (i : ℤ) (hi : val indexUysat r = .ok i) (s₀ : Shot) (hs₀ : AtIndex l i s₀)
    (range : SafeRange (2 ^ (-53 : ℤ)) h w l s₀) (j : ℕ) (hj : val indexSensitivityMax r = .ok j)
    (hx : ∃ s ∈ l.take (j + 1), signalOf h w s ≠ 0) (hp : ∃ s ∈ l.take (j + 1), s.photons ≠ 0)
    (p1 : 1 / 2 ^ 100 ≤ s₀.photons) (p2 : s₀.photons ≤ 2 ^ 100)
    (small : SmallErrors (2 ^ (-53 : ℤ)) η h w (l.take (j + 1)))
    (k m : ℝ) (hk : val (K q) r = .ok (.fin k)) (k1 : 1 / 2 ^ 99 ≤ k) (k2 : k ≤ 2 ^ 99)
    (hm : val (Results.R q) r = .ok (.fin m)) (m1 : 1 / 2 ^ 99 ≤ m) (m2 : m ≤ 2 ^ 99)
    (tol : SmallTolerance (2 ^ (-53 : ℤ)) η τ δ ρ k m h w (l.take (j + 1)))
    (e : ℝ) (he : 1 ≤ ((1 - ρ) ^ 7 * (1 - η) ^ 14 * (1 - (2 : ℝ) ^ (-53 : ℤ)) ^ 18) * (1 + e)) (e2 : e ≤ 1 / 2) :
    RelError e (val (Ieee.gain q') r') (val (K q) r) ∧
    RelError e (val (Ieee.resp q') r') (val (Results.R q) r) ∧
    RelError e (val (Ieee.inverseK q') r') (val (inverseK q) r) ∧
    RelError e (val (Ieee.QE q') r') (val (QE q) r) ∧
    RelError e (val (Ieee.sigmaYDark q') r') (val (sigmaYDark q) r) ∧
    RelError e (val (Ieee.sigmaD q') r') (val (sigmaD q) r) ∧
    RelError e (val (Ieee.uPMin q') r') (val (uPMin q) r) ∧
    RelError e (val (Ieee.uEMin q') r') (val (uEMin q) r) ∧
    RelError e (val (Ieee.uESat q') r') (val (uESat q) r) ∧
    RelError e (val (Ieee.SNRMax q') r') (val (SNRMax q) r) ∧
    RelError e (val (Ieee.inverseSNRMax q') r') (val (inverseSNRMax q) r) ∧
    RelError e (val (Ieee.DR q') r') (val (DR q) r) := by
  have pos : ∀ {x : ℝ} {n : ℕ}, 1 / 2 ^ n ≤ x → 0 < x := fun h => lt_of_lt_of_le (by positivity) h
  obtain ⟨t, ht0⟩ : ∃ t, t ∈ l := by obtain ⟨s, hs, -⟩ := hx; exact ⟨s, List.mem_of_mem_take hs⟩
  have h0 : 0 < h * w := (ok.bright t ht0).pos
  have hn : h * w ≤ 2 ^ 51 := by exact_mod_cast ok.size
  have sz := ok.sized
  have ht2 : r'.temporal = Rounded.temporal binary64 T.free h w l := ht'.trans (C106_data T h0 hn hd sz)
  have main := C102_measurement binary64 T.free (by norm_num) q' q hq τ δ ρ η hq' hτ hρ hρ1 hη hη1 hacc ok r r' ht ht2 hgiven few sat i hi s₀ hs₀
    range j hj hx hp (pos p1) small k m hk (pos k1) hm (pos m1) tol e he
  obtain ⟨a1, a2, a3, a4, a5, a6, a7, a8, a9, a10, a11, a12⟩ := main
  obtain ⟨s, tl, rfl⟩ : ∃ s tl, l = s :: tl := List.exists_cons_of_ne_nil fun h => by rw [h] at ht0; simp at ht0
  have rv := (shots_rep T h0 hn hd sz s (by simp)).2.2
  have ev : val (rawDark q') r' =
      .ok (.fin (Rounded.seriesPoint binary64 (h * w) (Rounded.entry binary64 T.free [s.dark₁, s.dark₂])).2) := by
    unfold rawDark
    rw [val_bind_ok stable_few (by stab) rfl, val_bind_ok stable_temporal (by stab) rfl,
      if_pos (decide_eq_true (by rw [nUnique_eq, ht']; exact few)), val_lift, ht']
    exact congrArg Except.ok rv.eq
  obtain ⟨-, eg, er, c1, c2, c3, c4, c5, c6, c7, c8, c9, c10⟩ := ieee_from_images T q' ok hd r r' ht ht' hgiven sat i hi s₀ hs₀ p1 p2 e e2 _ _ a1 k hk k1
    k2 a2 m hm m1 m2 _ ev ((le_abs_self _).trans (by exact_mod_cast rv.tame.le))
  rw [eg, er, c1, c2, c3, c4, c5, c6, c7, c8, c9, c10]
  exact ⟨a1, a2, a3, a4, a5, a6, a7, a8, a9, a10, a11, a12⟩

end Emva
