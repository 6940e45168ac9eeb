import Verif.Model.DatasetGenerator
import Mathlib.Tactic.FieldSimp
import Mathlib.Tactic.IntervalCases
import Mathlib.Tactic.NormNum
import Mathlib.Algebra.Order.Field.Rat

set_option autoImplicit false
namespace Emva
namespace Py

theorem digitChar_facts {d : ℕ} (h : d < 10) :
    digitVal (digitChar d) = d ∧ isDigit (digitChar d) = true ∧ isSpace (digitChar d) = false ∧
      digitChar d ≠ ',' ∧ digitChar d ≠ '.' ∧ digitChar d ≠ '-' ∧ digitChar d ≠ '+' ∧
      digitChar d ≠ '/' ∧ digitChar d ≠ '\\' := by
  interval_cases d <;> decide

theorem digitsVal_append (s t : Str) :
    digitsVal (s ++ t) = digitsVal s * 10 ^ t.length + digitsVal t := by
  have gen : ∀ (t : Str) (n : ℕ), t.foldl (fun n c => 10 * n + digitVal c) n
      = n * 10 ^ t.length + digitsVal t := by
    intro t
    induction t with
    | nil => intro n; simp [digitsVal]
    | cons c cs ih =>
      intro n
      simp only [List.foldl_cons, digitsVal, List.length_cons]
      rw [ih, ih]
      ring
  unfold digitsVal
  rw [List.foldl_append, gen]
  rfl

theorem digitsVal_cons (c : Char) (t : Str) :
    digitsVal (c :: t) = digitVal c * 10 ^ t.length + digitsVal t := by
  rw [show c :: t = [c] ++ t from rfl, digitsVal_append]
  simp [digitsVal]

/-- Characters of a printed natural number are digits. -/
def AllDig (s : Str) : Prop := ∀ c ∈ s, ∃ d < 10, c = digitChar d

theorem allDig_fmtNat (n : ℕ) : AllDig (fmtNat n) := by
  unfold fmtNat AllDig
  split
  · intro c hc
    simp at hc
    exact ⟨0, by omega, by subst hc; decide⟩
  · intro c hc
    simp only [List.mem_reverse, List.mem_map] at hc
    obtain ⟨d, hd, rfl⟩ := hc
    exact ⟨d, Nat.digits_lt_base (by omega) hd, rfl⟩

theorem fmtNat_ne_nil (n : ℕ) : fmtNat n ≠ [] := by
  unfold fmtNat
  split
  · simp
  · rename_i h
    simp [Nat.digits_ne_nil_iff_ne_zero.2 h]

theorem digitsVal_fmtNat (n : ℕ) : digitsVal (fmtNat n) = n := by
  unfold fmtNat
  split
  · rename_i h; subst h; decide
  · have gen : ∀ ds : List ℕ, (∀ d ∈ ds, d < 10) →
        digitsVal ((ds.map digitChar).reverse) = Nat.ofDigits 10 ds := by
      intro ds
      induction ds with
      | nil => intro _; rfl
      | cons d ds ih =>
        intro h
        simp only [List.map_cons, List.reverse_cons]
        rw [digitsVal_append, ih fun x hx => h x (List.mem_cons_of_mem _ hx), Nat.ofDigits_cons]
        have := (digitChar_facts (h d (by simp))).1
        simp [digitsVal, this]
        ring
    rw [gen _ fun d hd => Nat.digits_lt_base (by omega) hd, Nat.ofDigits_digits]

/-- fractional digits -/
def frac (d n : ℕ) : Str := ((List.range d).map fun i => digitChar (n / 10 ^ i % 10)).reverse

theorem frac_succ (d n : ℕ) : frac (d + 1) n = digitChar (n / 10 ^ d % 10) :: frac d n := by
  simp [frac, List.range_succ]

theorem length_frac (d n : ℕ) : (frac d n).length = d := by simp [frac]

theorem allDig_frac (d n : ℕ) : AllDig (frac d n) := by
  intro c hc
  simp only [frac, List.mem_reverse, List.mem_map] at hc
  obtain ⟨i, -, rfl⟩ := hc
  exact ⟨_, Nat.mod_lt _ (by omega), rfl⟩

theorem digitsVal_frac (d n : ℕ) : digitsVal (frac d n) = n % 10 ^ d := by
  induction d with
  | zero => simp [frac, digitsVal, Nat.mod_one]
  | succ d ih =>
    rw [frac_succ, digitsVal_cons, ih, length_frac,
      (digitChar_facts (Nat.mod_lt _ (by omega))).1, Nat.mod_pow_succ]
    ring

theorem AllDig.isDigit {s : Str} (h : AllDig s) : ∀ c ∈ s, isDigit c = true := by
  intro c hc
  obtain ⟨d, hd, rfl⟩ := h c hc
  exact (digitChar_facts hd).2.1

theorem AllDig.all {s : Str} (h : AllDig s) : s.all Py.isDigit = true := by
  rw [List.all_eq_true]; exact h.isDigit

theorem takeWhile_all {p : Char → Bool} {s : Str} (h : ∀ c ∈ s, p c = true) (t : Str)
    (ht : ∀ c, t.head? = some c → p c = false) :
    (s ++ t).takeWhile p = s ∧ (s ++ t).dropWhile p = t := by
  induction s with
  | nil =>
    cases t with
    | nil => simp
    | cons c cs => simp [ht c rfl]
  | cons c cs ih =>
    have := ih fun x hx => h x (List.mem_cons_of_mem _ hx)
    simp [h c (by simp), this.1, this.2]

theorem fmtFixedNat_eq (d n : ℕ) (hd : 0 < d) :
    fmtFixedNat d n = fmtNat (n / 10 ^ d) ++ '.' :: frac d n := by
  unfold fmtFixedNat
  simp only [hd.ne', if_false]
  rfl

theorem head_ne {s : Str} (hs : s ≠ []) (h : AllDig s) {t : Str} :
    ∃ d rest, d < 10 ∧ s ++ t = digitChar d :: rest := by
  cases s with
  | nil => exact absurd rfl hs
  | cons c cs =>
    obtain ⟨d, hd, rfl⟩ := h c (by simp)
    exact ⟨d, cs ++ t, hd, rfl⟩

theorem decFloat_unsigned {s : Str} (d : ℕ) (rest : Str) (hd : d < 10) (h : s = digitChar d :: rest) :
    decFloat s = decUnsigned s := by
  subst h
  have f := digitChar_facts hd
  unfold decFloat
  split
  · rename_i e; simp at e; exact absurd e.1 f.2.2.2.2.2.1
  · rename_i e; simp at e; exact absurd e.1 f.2.2.2.2.2.2.1
  · rfl

/-- Printing with `d ≥ 1` decimals and reading back. -/
theorem decFloat_fmtFixedNat (d n : ℕ) (hd : 0 < d) :
    decFloat (fmtFixedNat d n) = some ((n : ℚ) / 10 ^ d) := by
  rw [fmtFixedNat_eq d n hd]
  obtain ⟨k, rest, hk, e⟩ := head_ne (fmtNat_ne_nil (n / 10 ^ d)) (allDig_fmtNat _)
    (t := '.' :: frac d n)
  rw [decFloat_unsigned k rest hk e]
  unfold decUnsigned
  have tw := takeWhile_all (p := isDigit) (s := fmtNat (n / 10 ^ d)) (allDig_fmtNat _).isDigit
    ('.' :: frac d n) (by intro c hc; simp at hc; subst hc; decide)
  simp only [tw.1, tw.2]
  rw [if_pos ⟨trivial, (allDig_frac d n).all, .inl (fmtNat_ne_nil _)⟩]
  congr 2
  · rw [digitsVal_append, digitsVal_fmtNat, digitsVal_frac, length_frac]
    congr 1
    exact Nat.div_add_mod' n (10 ^ d)
  · rw [length_frac]

theorem decInt_fmtNat (n : ℕ) : decInt (fmtNat n) = some (n : ℤ) := by
  obtain ⟨k, rest, hk, e⟩ := head_ne (fmtNat_ne_nil n) (allDig_fmtNat _) (t := [])
  simp at e
  have f := digitChar_facts hk
  have : decInt (fmtNat n) = decNat (fmtNat n) := by
    rw [e]
    unfold decInt
    split
    · rename_i e; simp at e; exact absurd e.1 f.2.2.2.2.2.1
    · rename_i e; simp at e; exact absurd e.1 f.2.2.2.2.2.2.1
    · rfl
  rw [this]
  unfold decNat
  rw [if_pos ⟨fmtNat_ne_nil n, (allDig_fmtNat n).all⟩, digitsVal_fmtNat]

theorem AllDig.noSpace {s : Str} (h : AllDig s) : ∀ c ∈ s, isSpace c = false := by
  intro c hc
  obtain ⟨d, hd, rfl⟩ := h c hc
  exact (digitChar_facts hd).2.2.1

theorem fmtFixedNat_facts (d n : ℕ) (hd : 0 < d) :
    fmtFixedNat d n ≠ [] ∧ (∀ c ∈ fmtFixedNat d n, isSpace c = false) ∧
      replaceChar ',' '.' (fmtFixedNat d n) = fmtFixedNat d n := by
  rw [fmtFixedNat_eq d n hd]
  refine ⟨by simp, ?_, ?_⟩
  · intro c hc
    rcases List.mem_append.1 hc with h | h
    · exact (allDig_fmtNat _).noSpace c h
    · rcases List.mem_cons.1 h with rfl | h
      · decide
      · exact (allDig_frac _ _).noSpace c h
  · unfold replaceChar
    conv_rhs => rw [← List.map_id (fmtNat (n / 10 ^ d) ++ '.' :: frac d n)]
    apply List.map_congr_left
    intro c hc
    have : c ≠ ',' := by
      rcases List.mem_append.1 hc with h | h
      · obtain ⟨k, hk, rfl⟩ := allDig_fmtNat _ c h; exact (digitChar_facts hk).2.2.2.1
      · rcases List.mem_cons.1 h with rfl | h
        · decide
        · obtain ⟨k, hk, rfl⟩ := allDig_frac _ _ c h; exact (digitChar_facts hk).2.2.2.1
    simp [this]

end Py

namespace Gen
open Py

theorem rint_int (n : ℤ) : rint (n : ℚ) = n := by
  simp [rint]

theorem rint_nonneg {x : ℚ} (h : 0 ≤ x) : 0 ≤ rint x := by
  have := Int.floor_nonneg.2 h
  unfold rint
  simp only
  split
  · exact this
  · split
    · omega
    · split <;> omega

theorem roundTo_nonneg (d : ℕ) {x : ℚ} (h : 0 ≤ x) : 0 ≤ roundTo d x := by
  unfold roundTo
  have : 0 ≤ rint (x * 10 ^ d) := rint_nonneg (by positivity)
  have : (0 : ℚ) ≤ rint (x * 10 ^ d) := by exact_mod_cast this
  positivity

theorem roundTo_roundTo (d : ℕ) (x : ℚ) : roundTo d (roundTo d x) = roundTo d x := by
  unfold roundTo
  have : (rint (x * 10 ^ d) : ℚ) / 10 ^ d * 10 ^ d = rint (x * 10 ^ d) := by
    field_simp
  rw [this, rint_int]

theorem fmtFixed_nonneg (d : ℕ) {x : ℚ} (h : 0 ≤ x) :
    fmtFixed d x = fmtFixedNat d (rint (x * 10 ^ d)).natAbs := by
  have : ¬ rint (x * 10 ^ d) < 0 := not_lt.2 (rint_nonneg (by positivity))
  simp [fmtFixed, this]

/-- Printing and parsing rounds to `d` decimals. -/
theorem decFloat_fmtFixed (d : ℕ) (hd : 0 < d) {x : ℚ} (h : 0 ≤ x) :
    decFloat (fmtFixed d x) = some (roundTo d x) := by
  rw [fmtFixed_nonneg d h, decFloat_fmtFixedNat d _ hd]
  congr 2
  have : 0 ≤ rint (x * 10 ^ d) := rint_nonneg (by positivity)
  have e : ((rint (x * 10 ^ d)).natAbs : ℤ) = rint (x * 10 ^ d) := Int.natAbs_of_nonneg this
  calc (((rint (x * 10 ^ d)).natAbs : ℕ) : ℚ) = (((rint (x * 10 ^ d)).natAbs : ℤ) : ℚ) := by rw [Int.cast_natCast]
    _ = _ := by rw [e]

theorem fmtFixed_facts (d : ℕ) (hd : 0 < d) {x : ℚ} (h : 0 ≤ x) :
    fmtFixed d x ≠ [] ∧ (∀ c ∈ fmtFixed d x, isSpace c = false) ∧
      replaceChar ',' '.' (fmtFixed d x) = fmtFixed d x := by
  rw [fmtFixed_nonneg d h]
  exact fmtFixedNat_facts d _ hd

end Gen
end Emva
