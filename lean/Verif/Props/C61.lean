import Verif.Model.Missing
import Verif.Lemmas.Num
import Verif.Props.C29_C32
import Verif.Props.C33_C34
import Verif.Props.C49

/-!
C61: missing values in reports.
-/
set_option autoImplicit false
set_option linter.unusedSectionVars false
namespace Emva
namespace Report
open Py

theorem decFloat_fmtFixedNat' (d n : ℕ) : decFloat (fmtFixedNat d n) = some ((n : ℚ) / 10 ^ d) := by
  rcases Nat.eq_zero_or_pos d with rfl | hd
  · have e0 : fmtFixedNat 0 n = fmtNat n := by simp [fmtFixedNat]
    rw [e0]
    obtain ⟨k, rest, hk, e⟩ := head_ne (fmtNat_ne_nil n) (allDig_fmtNat _) (t := [])
    rw [List.append_nil] at e
    rw [decFloat_unsigned k rest hk e]
    have tw := takeWhile_all (p := isDigit) (s := fmtNat n) (allDig_fmtNat _).isDigit [] (by simp)
    rw [List.append_nil] at tw
    unfold decUnsigned
    simp only [tw.1, tw.2]
    rw [if_neg (fmtNat_ne_nil n), digitsVal_fmtNat]
    simp
  · exact decFloat_fmtFixedNat d n hd

theorem fmtFixedNat_head (d n : ℕ) : ∃ k rest, k < 10 ∧ fmtFixedNat d n = digitChar k :: rest := by
  unfold fmtFixedNat
  exact head_ne (fmtNat_ne_nil _) (allDig_fmtNat _)

/-- the digits after the decimal point -/
def decimals (s : Str) : ℕ := ((s.dropWhile (· ≠ '.')).drop 1).length

theorem decimals_digits {s t : Str} (hs : ∀ c ∈ s, c ≠ '.') : decimals (s ++ '.' :: t) = t.length ∧ decimals s = 0 := by
  induction s with
  | nil => simp [decimals]
  | cons a s ih =>
    have ha : a ≠ '.' := hs a (List.mem_cons_self ..)
    have := ih fun c hc => hs c (List.mem_cons_of_mem _ hc)
    simpa [decimals, ha] using this

theorem noPoint {s : Str} (h : AllDig s) : ∀ c ∈ s, c ≠ '.' := by
  intro c hc h0
  have := h.isDigit c hc
  rw [h0] at this
  exact absurd this (by decide)

theorem decimals_fmtFixedNat (d n : ℕ) : decimals (fmtFixedNat d n) = d := by
  rcases Nat.eq_zero_or_pos d with rfl | hd
  · have e0 : fmtFixedNat 0 n = fmtNat n := by simp [fmtFixedNat]
    rw [e0]
    exact (decimals_digits (t := []) (noPoint (allDig_fmtNat n))).2
  · rw [fmtFixedNat_eq d n hd, (decimals_digits (noPoint (allDig_fmtNat _))).1, length_frac]

end Report

open Report Py
section
variable {F : Type} [Field F] [LinearOrder F] [IsStrictOrderedRing F] [FloorRing F]

/-- A number is shown: the text reads back as a decimal number within half a unit of the last of the
`p` digits, with the sign of the number. -/
def Shown (p : ℕ) (x : F) (s : Str) : Prop :=
  ∃ y : ℚ, decFloat s = some y ∧ |(y : F) - x| ≤ 1 / 2 / 10 ^ p ∧ Report.decimals s = p ∧
    (s.head? = some '-' ↔ x < 0) ∧ s ≠ ['-'] ∧ s ≠ "nan".toList

theorem Report.fmtFin_shown (p : ℕ) (x : F) : Shown p x (fmtFin p x) := by
  obtain ⟨k, rest, hk, e⟩ := fmtFixedNat_head p (Cam.rint (|x| * 10 ^ p)).natAbs
  have hn : 0 ≤ Cam.rint (|x| * 10 ^ p) := by
    have := Cam.rint_mono (x := (0 : F)) (y := |x| * 10 ^ p) (by positivity)
    rwa [show Cam.rint (0 : F) = 0 by simpa using Cam.rint_int (F := F) 0] at this
  have hcast : (((Cam.rint (|x| * 10 ^ p)).natAbs : ℕ) : F) = (Cam.rint (|x| * 10 ^ p) : F) := by
    have : (((Cam.rint (|x| * 10 ^ p)).natAbs : ℕ) : ℤ) = Cam.rint (|x| * 10 ^ p) := Int.natAbs_of_nonneg hn
    rw [← Int.cast_natCast, this]
  have hp : (0 : F) < 10 ^ p := by positivity
  have herr : abs ((((Cam.rint (|x| * 10 ^ p)).natAbs : ℕ) : F) / 10 ^ p - |x|) ≤ 1 / 2 / 10 ^ p := by
    rw [hcast]
    have h1 := Cam.rint_err (|x| * 10 ^ p)
    have : (Cam.rint (|x| * 10 ^ p) : F) / 10 ^ p - |x| = ((Cam.rint (|x| * 10 ^ p) : F) - |x| * 10 ^ p) / 10 ^ p := by
      field_simp
    rw [this, abs_div, abs_of_pos hp]
    exact div_le_div_of_nonneg_right h1 hp.le
  have hdig : ('0'.toNat ≤ (digitChar k).toNat) ∧ digitChar k ≠ '-' ∧ digitChar k ≠ 'n' := by
    clear e
    revert k; decide
  have hdec := decimals_fmtFixedNat p (Cam.rint (|x| * 10 ^ p)).natAbs
  have hread := decFloat_fmtFixedNat' p (Cam.rint (|x| * 10 ^ p)).natAbs
  unfold fmtFin
  simp only
  generalize (Cam.rint (|x| * 10 ^ p)).natAbs = n at *
  by_cases hx : x < 0
  · rw [if_pos hx]
    refine ⟨-((n : ℚ) / 10 ^ p), ?_, ?_, ?_, ?_, ?_, ?_⟩
    · have : decUnsigned (fmtFixedNat p n) = some ((n : ℚ) / 10 ^ p) := by
        rw [← decFloat_unsigned k rest hk e]; exact hread
      show (decUnsigned (fmtFixedNat p n)).map _ = _
      rw [this]; rfl
    · rw [abs_of_neg hx] at herr
      push_cast
      have : -((n : F) / 10 ^ p) - x = -((n : F) / 10 ^ p - -x) := by ring
      rw [this, abs_neg]
      exact herr
    · simpa [decimals] using hdec
    · simp [hx]
    · rw [e]; simp
    · simp
  · rw [if_neg hx]
    refine ⟨(n : ℚ) / 10 ^ p, hread, ?_, hdec, ?_, ?_, ?_⟩
    · rw [abs_of_nonneg (not_lt.1 hx)] at herr
      push_cast
      exact herr
    · rw [e]
      simp [hdig.2.1, hx]
    · rw [e]
      intro h0
      exact hdig.2.1 (List.cons.inj h0).1
    · rw [e]
      intro h0
      exact hdig.2.2 (List.cons.inj h0).1

/-- C61: a finite number or an integer is shown to `p` digits, whatever `p`. -/
theorem C61_number (p : ℕ) :
    (∀ x : F, ∃ s, missingNumber (.float (.fin x)) p = .ok s ∧ Shown p x s) ∧
    (∀ n : ℤ, ∃ s, missingNumber (.int n : RVal F) p = .ok s ∧ Shown p (n : F) s ∧
      ∃ y : ℚ, decFloat s = some y ∧ y = n) := by
  refine ⟨fun x => ⟨_, rfl, fmtFin_shown p x⟩, fun n => ⟨_, rfl, fmtFin_shown p _, ?_⟩⟩
  obtain ⟨y, h1, -⟩ := fmtFin_shown p (n : F)
  refine ⟨y, h1, ?_⟩
  have hr : Cam.rint (|((n : ℤ) : F)| * 10 ^ p) = |n| * 10 ^ p := by
    have := Cam.rint_int (F := F) (|n| * 10 ^ p)
    push_cast at this
    exact this
  have hna : ((|n| * 10 ^ p : ℤ).natAbs : ℚ) = |(n : ℚ)| * 10 ^ p := by
    have : (((|n| * 10 ^ p : ℤ).natAbs : ℤ) : ℚ) = ((|n| * 10 ^ p : ℤ) : ℚ) := by
      rw [Int.natAbs_of_nonneg (by positivity)]
    rw [Int.cast_natCast] at this
    rw [this]; push_cast; rfl
  have h10 : (10 : ℚ) ^ p ≠ 0 := by positivity
  unfold fmtFin at h1
  simp only [hr] at h1
  have hread := decFloat_fmtFixedNat' p (|n| * 10 ^ p : ℤ).natAbs
  split at h1
  · rename_i hneg
    have hneg' : n < 0 := by exact_mod_cast hneg
    obtain ⟨k, rest, hk, e⟩ := fmtFixedNat_head p (|n| * 10 ^ p : ℤ).natAbs
    rw [decFloat_unsigned k rest hk e] at hread
    have : (decUnsigned (fmtFixedNat p (|n| * 10 ^ p : ℤ).natAbs)).map (- ·) = some y := h1
    rw [hread, Option.map_some, hna, mul_div_assoc, div_self h10, mul_one] at this
    rw [← Option.some.inj this, abs_of_neg (by exact_mod_cast hneg')]
    ring
  · rename_i hneg
    have hneg' : 0 ≤ n := by
      have : ¬ n < 0 := fun h => hneg (by exact_mod_cast h)
      omega
    rw [hread, hna, mul_div_assoc, div_self h10, mul_one] at h1
    rw [← Option.some.inj h1, abs_of_nonneg (by exact_mod_cast hneg')]

/-- C61, the part that holds: `None` and the object `np.nan` are shown as `-` (or the default of the
filter), every other value is passed on or formatted.  Missing: a NaN that was computed, see
`C61_computed_nan`. -/
theorem C61_missing_partial (p : ℕ) (d : RVal F) :
    missingNumber (.none : RVal F) p = .ok "-".toList ∧ missingNumber (.npnan : RVal F) p = .ok "-".toList ∧
    missingFilter .none d = d ∧ missingFilter .npnan d = d ∧
    (∀ v : RVal F, v ≠ .none → v ≠ .npnan → missingFilter v d = v) ∧
    (∀ v : RVal F, v ≠ .none → v ≠ .npnan → missingNumber v p ≠ .ok "-".toList) := by
  refine ⟨rfl, rfl, rfl, rfl, ?_, ?_⟩
  · intro v h1 h2
    cases v <;> first | rfl | exact absurd rfl h1 | exact absurd rfl h2
  · intro v h1 h2
    cases v with
    | none => exact absurd rfl h1
    | npnan => exact absurd rfl h2
    | float x =>
      cases x with
      | nan => intro h; exact absurd (Except.ok.inj h) (show "nan".toList ≠ "-".toList by decide)
      | inf b =>
        intro h
        cases b
        · exact absurd (Except.ok.inj h) (show "inf".toList ≠ "-".toList by decide)
        · exact absurd (Except.ok.inj h) (show "-inf".toList ≠ "-".toList by decide)
      | fin x =>
        intro h
        obtain ⟨y, -, -, -, -, h3, -⟩ := fmtFin_shown p x
        exact h3 (Except.ok.inj h)
    | int n =>
      intro h
      obtain ⟨y, -, -, -, -, h3, -⟩ := fmtFin_shown p (n : F)
      exact h3 (Except.ok.inj h)
    | str s => intro h; cases h
    | undefined => intro h; cases h

/-- C61 does not hold in general: a NaN that was computed is shown as `nan`, and a name that the
dictionary of the report does not have is not recognised as missing: the general filter passes it on
(nothing is printed), the filter for numbers raises. -/
theorem C61_computed_nan (p : ℕ) (d : RVal F) :
    missingNumber (.float .nan : RVal F) p = .ok "nan".toList ∧
    missingFilter (.float .nan) d = .float .nan ∧
    missingFilter .undefined d = (.undefined : RVal F) ∧
    missingNumber (.undefined : RVal F) p = .error .typeError :=
  ⟨rfl, rfl, rfl, rfl⟩

end

/-- C61: the quantities that need a pixel area are shown as `-` when there is none. -/
theorem C61_no_area (q : LSQ ℝ) (r : Results.Res ℝ) (p : ℕ) (h : r.pixel_area = none ∨ r.pixel_area = some 0) :
    ∀ x ∈ [Results.uPMinArea q, Results.uEMinArea q, Results.uPSatArea, Results.uESatArea q],
      ∃ v, (x r).1 = .ok v ∧ missingNumber (ofNum v) p = .ok "-".toList := by
  have key : ∀ m : Results.M ℝ (Fl ℝ), (Results.perArea m r).1 = .ok .none := by
    intro m
    rcases h with h | h <;>
    · show (Results.M.bind (Results.ask Results.Res.pixel_area) _ r).1 = _
      simp only [Results.M.bind, Results.ask, h]
      rfl
  intro x hx
  simp only [List.mem_cons, List.not_mem_nil, or_false] at hx
  rcases hx with rfl | rfl | rfl | rfl <;> exact ⟨.none, key _, rfl⟩

/-- C61: the dark current is shown as `-` when it cannot be determined (fewer than three exposures). -/
theorem C61_no_dark_current {F : Type} [Field F] [LinearOrder F] [IsStrictOrderedRing F] [FloorRing F]
    (q : LSQ F) (r : Results.Res F) (p : ℕ) (h : r.temporal.texp.toFinset.card ≤ 2) :
    ∀ x ∈ [Results.uIVarDN q, Results.uIVar q, Results.uIMeanDN q, Results.uIMean q],
      ∃ v, (x r).1 = .ok v ∧ missingNumber (ofNum v) p = .ok "-".toList := by
  obtain ⟨h1, h2, h3, h4⟩ := C33_few_exposures q r h
  intro x hx
  simp only [List.mem_cons, List.not_mem_nil, or_false] at hx
  rcases hx with rfl | rfl | rfl | rfl
  · exact ⟨_, h3, rfl⟩
  · exact ⟨_, h4, rfl⟩
  · exact ⟨_, h1, rfl⟩
  · exact ⟨_, h2, rfl⟩

/-! ### cases -/

example : missingNumber (.float (.fin (-1 / 3)) : RVal ℚ) 3 = .ok "-0.333".toList := by decide +kernel
example : missingNumber (.float (.fin (1 / 8)) : RVal ℚ) 2 = .ok "0.12".toList := by decide +kernel
example : missingNumber (.float (.fin (-1 / 1000)) : RVal ℚ) 1 = .ok "-0.0".toList := by decide +kernel
example : missingNumber (.int 1234 : RVal ℚ) 0 = .ok "1234".toList := by decide +kernel

end Emva
