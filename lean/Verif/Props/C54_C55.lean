import Verif.Model.Search
import Verif.Spec.Search
import Verif.Props.C51_C52
import Mathlib.Tactic.FieldSimp
import Mathlib.Algebra.Order.BigOperators.Group.Finset
import Mathlib.Data.Finset.Prod

/-!
C54: bad pixels.  C55: searches for the gain and the black offset.
-/
set_option autoImplicit false
set_option linter.unusedSectionVars false
namespace Emva
open Cam Spec

namespace Cam
variable {F : Type} [Field F] [LinearOrder F]

theorem foldl_setPixel (v : F) (draw : List ℕ) : ∀ c : Camera F,
    ∃ d, draw.foldl (fun c i => setPixel c i v) c = { c with dsnu := d } ∧
      (∀ r s, (∃ p ∈ draw, r = p / c.width ∧ s = p % c.width) → d r s = v) ∧
      (∀ r s, (¬ ∃ p ∈ draw, r = p / c.width ∧ s = p % c.width) → d r s = c.dsnu r s) := by
  induction draw with
  | nil => intro c; exact ⟨c.dsnu, rfl, by simp, by simp⟩
  | cons p draw ih =>
    intro c
    obtain ⟨d, h1, h2, h3⟩ := ih (setPixel c p v)
    refine ⟨d, h1, ?_, ?_⟩
    · intro r s h
      by_cases h' : ∃ q ∈ draw, r = q / c.width ∧ s = q % c.width
      · exact h2 r s h'
      · rw [h3 r s h']
        refine if_pos ?_
        obtain ⟨q, hq, hrs⟩ := h
        rcases List.mem_cons.1 hq with rfl | hq
        · exact hrs
        · exact absurd ⟨q, hq, hrs⟩ h'
    · intro r s h
      rw [h3 r s (fun ⟨q, hq, hrs⟩ => h ⟨q, List.mem_cons_of_mem _ hq, hrs⟩)]
      exact if_neg fun hrs => h ⟨p, by simp, hrs⟩

theorem pos_iff {w : ℕ} (hw : 0 < w) (r s p : ℕ) : (r = p / w ∧ s = p % w) ↔ (p = r * w + s ∧ s < w) := by
  constructor
  · rintro ⟨rfl, rfl⟩
    exact ⟨(Nat.div_add_mod' p w).symm, Nat.mod_lt _ hw⟩
  · rintro ⟨rfl, hs⟩
    constructor
    · rw [Nat.add_comm, Nat.add_mul_div_right _ _ hw, Nat.div_eq_of_lt hs, Nat.zero_add]
    · rw [Nat.add_comm, Nat.add_mul_mod_self_right, Nat.mod_eq_of_lt hs]

end Cam

section
variable {F : Type} [Field F] [LinearOrder F]

/-- C54: for every draw of positions in the image, exactly the drawn pixels get the bad value, and
nothing else of the camera changes. -/
theorem C54_pixels (c : Camera F) (num : ℕ) (b : F) (draw : List ℕ) (hl : draw.length = num)
    (hd : ∀ p ∈ draw, p < c.height * c.width) :
    ∃ dsnu, badPixel c num (some b) draw = .ok { c with dsnu := dsnu } ∧
      (∀ i j, i < c.height → j < c.width → i * c.width + j ∈ draw → dsnu i j = b * c.uEsat) ∧
      (∀ i j, i < c.height → j < c.width → i * c.width + j ∉ draw → dsnu i j = c.dsnu i j) ∧
      (∀ i j, ¬ (i < c.height ∧ j < c.width) → dsnu i j = c.dsnu i j) := by
  by_cases h0 : c.height * c.width = 0
  · have : draw = [] := by
      rcases draw with _ | ⟨p, l⟩
      · rfl
      · have := hd p (by simp)
        omega
    subst this
    have hn : num = 0 := hl.symm
    refine ⟨c.dsnu, ?_, by simp, by simp, by simp⟩
    subst hn
    unfold badPixel
    simp
  · have hw : 0 < c.width := Nat.pos_of_ne_zero fun e => h0 (by rw [e, Nat.mul_zero])
    have hpos : ∀ r s, (∃ p ∈ draw, r = p / c.width ∧ s = p % c.width) ↔ (s < c.width ∧ r * c.width + s ∈ draw) := by
      intro r s
      constructor
      · rintro ⟨p, hp, h⟩
        rw [pos_iff hw] at h
        rw [← h.1]
        exact ⟨h.2, hp⟩
      · rintro ⟨h, hp⟩
        exact ⟨_, hp, (pos_iff hw r s _).2 ⟨rfl, h⟩⟩
    obtain ⟨d, h1, h2, h3⟩ := foldl_setPixel (b * c.uEsat) draw c
    refine ⟨d, ?_, ?_, ?_, ?_⟩
    · unfold badPixel
      simp only
      rw [if_neg (by omega), if_neg (by tauto), h1]
    · intro i j hi hj h
      exact h2 i j ((hpos i j).2 ⟨hj, h⟩)
    · intro i j hi hj h
      exact h3 i j fun h' => h ((hpos i j).1 h').2
    · intro i j h
      refine h3 i j fun h' => h ?_
      have h'' := (hpos i j).1 h'
      refine ⟨?_, h''.1⟩
      have := hd _ h''.2
      by_contra hc
      have : c.height * c.width ≤ i * c.width := Nat.mul_le_mul_right _ (not_lt.1 hc)
      omega

/-- C54: at most the requested number of pixels changes. -/
theorem C54_count (c c' : Camera F) (num : ℕ) (b : F) (draw : List ℕ) (hl : draw.length = num)
    (hd : ∀ p ∈ draw, p < c.height * c.width) (h : badPixel c num (some b) draw = .ok c') :
    ((Finset.range c.height ×ˢ Finset.range c.width).filter fun x => c'.dsnu x.1 x.2 ≠ c.dsnu x.1 x.2).card ≤ num := by
  obtain ⟨dsnu, h1, -, h3, -⟩ := C54_pixels c num b draw hl hd
  rw [h1] at h
  cases h
  rw [← hl]
  refine le_trans ?_ draw.toFinset_card_le
  refine Finset.card_le_card_of_injOn (fun x => x.1 * c.width + x.2) ?_ ?_
  · rintro ⟨i, j⟩ hx
    simp only [Finset.coe_filter, Finset.mem_product, Finset.mem_range, Set.mem_setOf_eq] at hx
    simp only [List.coe_toFinset, Set.mem_setOf_eq]
    by_contra hc
    exact hx.2 (h3 i j hx.1.1 hx.1.2 hc)
  · rintro ⟨i, j⟩ hx ⟨i', j'⟩ hy he
    simp only [Finset.coe_filter, Finset.mem_product, Finset.mem_range, Set.mem_setOf_eq] at hx hy
    have hw : 0 < c.width := by omega
    have he' : i * c.width + j = i' * c.width + j' := he
    have e1 := (pos_iff hw i j (i * c.width + j)).2 ⟨rfl, hx.1.2⟩
    have e2 := (pos_iff hw i' j' (i * c.width + j)).2 ⟨he', hy.1.2⟩
    rw [Prod.mk.injEq]
    exact ⟨e1.1.trans e2.1.symm, e1.2.trans e2.2.symm⟩

/-- C54: exactly a bad value `None` (`TypeError`), a negative number and pixels for a camera without pixels (`ValueError`) are
rejected. -/
theorem C54_rejected (c : Camera F) (num : ℤ) (bad : Option F) (draw : List ℕ) (e : PyErr) : badPixel c num bad draw = .error e ↔
    bad = none ∧ e = .typeError ∨
      bad ≠ none ∧ (num < 0 ∨ num ≠ 0 ∧ (c.height = 0 ∨ c.width = 0)) ∧ e = .valueError := by
  cases bad with
  | none => simp [badPixel, eq_comm]
  | some b =>
    unfold badPixel
    simp only
    split_ifs with h1 h2
    · simp [h1, eq_comm]
    · rw [Nat.mul_eq_zero] at h2; simp [h1, h2.1, h2.2, eq_comm]
    · rw [Nat.mul_eq_zero] at h2
      simp only [reduceCtorEq, false_and, false_or, ne_eq, not_false_eq_true, true_and, false_iff, not_and]
      rintro (h | ⟨h, h'⟩)
      · exact absurd h h1
      · exact absurd ⟨h', h⟩ h2

variable [IsStrictOrderedRing F] [FloorRing F]

/-- C54: with the bad value 1 (or more) and no negative noise of the electronics, a bad pixel is at the
full well capacity whatever the light. -/
theorem C54_saturated (c c' : Camera F) (num : ℕ) (b : F) (draw : List ℕ) (hl : draw.length = num)
    (hd : ∀ p ∈ draw, p < c.height * c.width) (h : badPixel c num (some b) draw = .ok c') (hb : 1 ≤ b)
    (hs : 0 ≤ c.uEsat) (n : Noise F) (i j : ℕ) (hi : i < c.height) (hj : j < c.width)
    (hp : i * c.width + j ∈ draw) (hn : 0 ≤ n.dark i j) : electrons c' n i j = c.uEsat := by
  obtain ⟨dsnu, h1, h2, -⟩ := C54_pixels c num b draw hl hd
  rw [h1] at h
  cases h
  have hv := h2 i j hi hj hp
  unfold electrons clip
  show min (max ((n.therm i j : F) + n.light i j + (dsnu i j + n.dark i j)) 0) c.uEsat = c.uEsat
  rw [hv]
  have h3 : c.uEsat ≤ b * c.uEsat := le_mul_of_one_le_left hs hb
  have h4 : (0 : F) ≤ (n.therm i j : F) := Nat.cast_nonneg _
  have h5 : (0 : F) ≤ (n.light i j : F) := Nat.cast_nonneg _
  exact min_eq_right (le_max_of_le_left (by linarith))

end

/-! ### C55 -/

namespace Cam

theorem stdAboveHalf_iff (a b : Img) : stdAboveHalf a b = true ↔ NoisyDifference a.h a.w a.px b.px := by
  unfold stdAboveHalf NoisyDifference
  simp only [decide_eq_true_eq]
  set S : ℤ := ∑ i ∈ Finset.range a.h, ∑ j ∈ Finset.range a.w, (a.px i j - b.px i j) with hS
  set Q : ℤ := ∑ i ∈ Finset.range a.h, ∑ j ∈ Finset.range a.w, (a.px i j - b.px i j) ^ 2 with hQ
  have hS' : (∑ i ∈ Finset.range a.h, ∑ j ∈ Finset.range a.w, ((a.px i j : ℚ) - b.px i j)) = S := by
    rw [hS]; push_cast; rfl
  have hQ' : (∑ i ∈ Finset.range a.h, ∑ j ∈ Finset.range a.w, ((a.px i j : ℚ) - b.px i j) ^ 2) = Q := by
    rw [hQ]; push_cast; rfl
  rw [hS']
  have hsum : ∀ m : ℚ, (∑ i ∈ Finset.range a.h, ∑ j ∈ Finset.range a.w, ((a.px i j : ℚ) - b.px i j - m) ^ 2) =
      Q - 2 * m * S + (a.h * a.w) * m ^ 2 := by
    intro m
    have : ∀ i j, ((a.px i j : ℚ) - b.px i j - m) ^ 2 =
        ((a.px i j : ℚ) - b.px i j) ^ 2 - 2 * m * ((a.px i j : ℚ) - b.px i j) + m ^ 2 := fun i j => by ring
    simp only [this, Finset.sum_add_distrib, Finset.sum_sub_distrib, ← Finset.mul_sum]
    simp only [Finset.sum_const, Finset.card_range, nsmul_eq_mul]
    simp only [← Finset.sum_sub_distrib]
    rw [hS', hQ']
    ring
  rw [hsum]
  by_cases hn : ((a.h : ℚ) * a.w) = 0
  · have h0 : a.h = 0 ∨ a.w = 0 := by
      rcases mul_eq_zero.1 hn with h | h
      · exact .inl (by exact_mod_cast h)
      · exact .inr (by exact_mod_cast h)
    have hS0 : S = 0 := by rcases h0 with h | h <;> simp [hS, h]
    have hn' : (a.h : ℤ) * a.w = 0 := by exact_mod_cast hn
    simp [hn, hn', hS0]
  · simp only [ne_eq, hn, not_false_eq_true, true_and]
    have hpos : (0 : ℚ) < (a.h : ℚ) * a.w := lt_of_le_of_ne (by positivity) (Ne.symm hn)
    generalize hN : (a.h : ℚ) * a.w = N at *
    have hZ : ((a.h : ℤ) * a.w * (a.h * a.w) < 4 * (a.h * a.w * Q - S * S)) ↔
        (N * N < 4 * (N * Q - S * S)) := by
      rw [← hN]
      constructor
      · intro h; exact_mod_cast h
      · intro h; exact_mod_cast h
    rw [hZ]
    have e : (Q - 2 * (S / N) * S + N * (S / N) ^ 2) / N = (N * Q - S * S) / (N * N) := by
      field_simp
      ring
    rw [e, lt_div_iff₀ (by positivity)]
    constructor <;> intro h <;> linarith

variable {F : Type} [Field F] [LinearOrder F] [IsStrictOrderedRing F]

theorem firstPassing_cons {α : Type} (x : α) (l : List α) (pass : ℕ → α → Prop) (m : ℕ) (y : α) (hx : ¬ pass 0 x)
    (h : FirstPassing l (fun i => pass (i + 1)) m y) : FirstPassing (x :: l) pass (m + 1) y := by
  obtain ⟨h1, h2, h3⟩ := h
  refine ⟨by simpa using h1, ?_, ?_⟩
  · intro i z hi hz
    cases i with
    | zero =>
      have : x = z := by simpa using hz
      rw [← this]; exact hx
    | succ i => exact h2 i z (by omega) (by simpa using hz)
  · rcases h3 with h3 | h3
    · exact .inl h3
    · exact .inr (by simp [← h3])

theorem gainLoop_ok (grab : ℕ → Camera F → Except PyErr Img) (im : ℕ → F → Img) (c : Camera F) (x : F) (ks : List F) :
    ∀ (k : ℕ) (kc g0 : F), (∀ y ∈ x :: ks, y ∈ c.Ks) →
    (∀ k, ∀ y ∈ x :: ks, grab k { c with K := y } = .ok (im k y)) →
    ∃ m g, FirstPassing (x :: ks) (fun i y => stdAboveHalf (im (k + 2 * i) y) (im (k + 2 * i + 1) y) = true) m g ∧
      gainLoop grab (x :: ks) k { c with K := kc } g0 = ({ c with K := g }, .ok g) := by
  induction ks generalizing x with
  | nil =>
    intro k kc g0 hks hg
    refine ⟨0, x, ⟨rfl, by omega, .inr rfl⟩, ?_⟩
    have hset : ({ c with K := kc } : Camera F).setK (.fin x) = .ok { c with K := x } :=
      (C48_exact { c with K := kc }).1 x (hks x (by simp))
    unfold gainLoop
    rw [hset]
    simp only [hg _ x (by simp), gainLoop]
    split_ifs <;> rfl
  | cons x' ks ih =>
    intro k kc g0 hks hg
    have hset : ({ c with K := kc } : Camera F).setK (.fin x) = .ok { c with K := x } :=
      (C48_exact { c with K := kc }).1 x (hks x (by simp))
    by_cases hp : stdAboveHalf (im k x) (im (k + 1) x) = true
    · refine ⟨0, x, ⟨rfl, by omega, .inl (by simpa using hp)⟩, ?_⟩
      unfold gainLoop
      rw [hset]
      simp only [hg _ x (by simp), hp, if_true]
    · obtain ⟨m, g, h1, h2⟩ := ih x' (k + 2) x x (fun y hy => hks y (List.mem_cons_of_mem _ hy))
        (fun k y hy => hg k y (List.mem_cons_of_mem _ hy))
      refine ⟨m + 1, g, firstPassing_cons _ _ _ _ _ (by simpa using hp) ?_, ?_⟩
      · have e : ∀ i, k + 2 + 2 * i = k + 2 * (i + 1) := fun i => by ring
        simpa only [e] using h1
      · unfold gainLoop
        rw [hset]
        simp only [hg _ x (by simp), hp, if_neg, Bool.false_eq_true, not_false_eq_true]
        exact h2

theorem offsetLoop_ok (grab : ℕ → Camera F → Except PyErr Img) (im : ℕ → F → Img) (c : Camera F) (x : F) (ks : List F) :
    ∀ (k : ℕ) (kc g0 : F), (∀ y ∈ x :: ks, y ∈ c.blackoffsets) →
    (∀ k, ∀ y ∈ x :: ks, grab k { c with blackoffset := y } = .ok (im k y)) →
    ∃ m g, FirstPassing (x :: ks) (fun i y => mostNonzero c (im (k + i) y) = true) m g ∧
      offsetLoop grab (x :: ks) k { c with blackoffset := kc } g0 = ({ c with blackoffset := g }, .ok g) := by
  induction ks generalizing x with
  | nil =>
    intro k kc g0 hks hg
    refine ⟨0, x, ⟨rfl, by omega, .inr rfl⟩, ?_⟩
    have hset : ({ c with blackoffset := kc } : Camera F).setBlackoffset (.fin x) = .ok { c with blackoffset := x } :=
      (C48_exact { c with blackoffset := kc }).2 x (hks x (by simp))
    unfold offsetLoop
    rw [hset]
    simp only [hg _ x (by simp), offsetLoop]
    split_ifs <;> rfl
  | cons x' ks ih =>
    intro k kc g0 hks hg
    have hset : ({ c with blackoffset := kc } : Camera F).setBlackoffset (.fin x) = .ok { c with blackoffset := x } :=
      (C48_exact { c with blackoffset := kc }).2 x (hks x (by simp))
    have hmost : ∀ z a, mostNonzero { c with blackoffset := z } a = mostNonzero c a := fun _ _ => rfl
    by_cases hp : mostNonzero c (im k x) = true
    · refine ⟨0, x, ⟨rfl, by omega, .inl hp⟩, ?_⟩
      unfold offsetLoop
      rw [hset]
      simp only [hg _ x (by simp), hmost, hp, if_true]
    · obtain ⟨m, g, h1, h2⟩ := ih x' (k + 1) x x (fun y hy => hks y (List.mem_cons_of_mem _ hy))
        (fun k y hy => hg k y (List.mem_cons_of_mem _ hy))
      refine ⟨m + 1, g, firstPassing_cons _ _ _ _ _ (by simpa using hp) ?_, ?_⟩
      · have e : ∀ i, k + 1 + i = k + (i + 1) := fun i => by ring
        simpa only [e] using h1
      · unfold offsetLoop
        rw [hset]
        simp only [hg _ x (by simp), hmost, hp, if_neg, Bool.false_eq_true, not_false_eq_true]
        exact h2

theorem gainLoop_error (grab : ℕ → Camera F → Except PyErr Img) (c : Camera F) (e : PyErr) (c' : Camera F)
    (ks : List F) : ∀ (k : ℕ) (kc g0 : F), (∀ y ∈ ks, y ∈ c.Ks) →
    gainLoop grab ks k { c with K := kc } g0 = (c', .error e) →
    ∃ y ∈ ks, c' = { c with K := y } ∧ ∃ j, grab j c' = .error e := by
  induction ks with
  | nil => intro k kc g0 _ h; simp [gainLoop] at h
  | cons x ks ih =>
    intro k kc g0 hks h
    have hset : ({ c with K := kc } : Camera F).setK (.fin x) = .ok { c with K := x } :=
      (C48_exact { c with K := kc }).1 x (hks x (by simp))
    unfold gainLoop at h
    rw [hset] at h
    simp only at h
    cases h1 : grab k { c with K := x } with
    | error e1 =>
      rw [h1] at h
      cases h
      exact ⟨x, by simp, rfl, k, h1⟩
    | ok i1 =>
      rw [h1] at h
      simp only at h
      cases h2 : grab (k + 1) { c with K := x } with
      | error e1 =>
        rw [h2] at h
        cases h
        exact ⟨x, by simp, rfl, k + 1, h2⟩
      | ok i2 =>
        rw [h2] at h
        simp only at h
        split_ifs at h with hp
        · cases h
        · obtain ⟨y, hy, h3⟩ := ih (k + 2) x x (fun y hy => hks y (List.mem_cons_of_mem _ hy)) h
          exact ⟨y, List.mem_cons_of_mem _ hy, h3⟩

theorem offsetLoop_error (grab : ℕ → Camera F → Except PyErr Img) (c : Camera F) (e : PyErr) (c' : Camera F)
    (ks : List F) : ∀ (k : ℕ) (kc g0 : F), (∀ y ∈ ks, y ∈ c.blackoffsets) →
    offsetLoop grab ks k { c with blackoffset := kc } g0 = (c', .error e) →
    ∃ y ∈ ks, c' = { c with blackoffset := y } ∧ ∃ j, grab j c' = .error e := by
  induction ks with
  | nil => intro k kc g0 _ h; simp [offsetLoop] at h
  | cons x ks ih =>
    intro k kc g0 hks h
    have hset : ({ c with blackoffset := kc } : Camera F).setBlackoffset (.fin x) = .ok { c with blackoffset := x } :=
      (C48_exact { c with blackoffset := kc }).2 x (hks x (by simp))
    unfold offsetLoop at h
    rw [hset] at h
    simp only at h
    cases h1 : grab k { c with blackoffset := x } with
    | error e1 =>
      rw [h1] at h
      cases h
      exact ⟨x, by simp, rfl, k, h1⟩
    | ok i1 =>
      rw [h1] at h
      simp only at h
      split_ifs at h with hp
      · cases h
      · obtain ⟨y, hy, h3⟩ := ih (k + 1) x x (fun y hy => hks y (List.mem_cons_of_mem _ hy)) h
        exact ⟨y, List.mem_cons_of_mem _ hy, h3⟩

theorem FirstPassing.congr {α : Type} {l : List α} {p q : ℕ → α → Prop} {m : ℕ} {x : α}
    (h : FirstPassing l p m x) (he : ∀ i y, p i y ↔ q i y) : FirstPassing l q m x := by
  have : p = q := by funext i y; exact propext (he i y)
  rwa [← this]

end Cam

section
variable {F : Type} [Field F] [LinearOrder F] [IsStrictOrderedRing F]

/-- C55: whatever images are grabbed, the search for the gain returns the first available gain with which
two dark images differ enough, or else the last gain, and leaves the camera as it was.  `im j g` is the
`j`-th image, grabbed at the gain `g`. -/
theorem C55_gain (grab : ℕ → Camera F → Except PyErr Img) (im : ℕ → F → Img) (k : ℕ) (c : Camera F)
    (hK : c.K ∈ c.Ks) (hg : ∀ k, ∀ g ∈ c.Ks, grab k { c with K := g } = .ok (im k g))
    (hs : ∀ k g, (im k g).h = c.height ∧ (im k g).w = c.width) :
    ∃ m g, getGain grab k c = (c, .ok g) ∧
      FirstPassing c.Ks (fun i g => NoisyDifference c.height c.width (im (k + 2 * i) g).px (im (k + 2 * i + 1) g).px)
        m g := by
  cases hks : c.Ks with
  | nil => rw [hks] at hK; cases hK
  | cons x ks =>
    obtain ⟨m, g, h1, h2⟩ := gainLoop_ok grab im c x ks k c.K x (by rw [← hks]; exact fun _ h => h)
      (by rw [← hks]; exact hg)
    refine ⟨m, g, ?_, FirstPassing.congr h1 fun i y => ?_⟩
    · unfold getGain
      rw [hks, show Np.idx (x :: ks) 0 = .ok x from rfl]
      simp only
      rw [show gainLoop grab (x :: ks) k c x = ({ c with K := g }, .ok g) from h2]
      simp only [restoreK]
      rw [show ({ c with K := g } : Camera F).setK (.fin c.K) = .ok c from
        (C48_exact { c with K := g }).1 c.K hK]
    · rw [stdAboveHalf_iff, (hs _ _).1, (hs _ _).2]

/-- C55: the same for the black offset: the first one with which more than 99.5 % of the pixels of a dark
image are not zero, or else the last one. -/
theorem C55_blackoffset (grab : ℕ → Camera F → Except PyErr Img) (im : ℕ → F → Img) (k : ℕ) (c : Camera F)
    (hK : c.blackoffset ∈ c.blackoffsets)
    (hg : ∀ k, ∀ b ∈ c.blackoffsets, grab k { c with blackoffset := b } = .ok (im k b))
    (hs : ∀ k g, (im k g).h = c.height ∧ (im k g).w = c.width) :
    ∃ m b, getBlackoffset grab k c = (c, .ok b) ∧
      FirstPassing c.blackoffsets (fun i b => (995 / 1000 : ℚ) * (c.height * c.width) <
        ((Finset.range c.height ×ˢ Finset.range c.width).filter fun x => (im (k + i) b).px x.1 x.2 ≠ 0).card) m b := by
  cases hks : c.blackoffsets with
  | nil => rw [hks] at hK; cases hK
  | cons x ks =>
    obtain ⟨m, g, h1, h2⟩ := offsetLoop_ok grab im c x ks k c.blackoffset x (by rw [← hks]; exact fun _ h => h)
      (by rw [← hks]; exact hg)
    refine ⟨m, g, ?_, FirstPassing.congr h1 fun i y => ?_⟩
    · unfold getBlackoffset
      rw [hks, show Np.idx (x :: ks) 0 = .ok x from rfl]
      simp only
      rw [show offsetLoop grab (x :: ks) k c x = ({ c with blackoffset := g }, .ok g) from h2]
      simp only [restoreBlackoffset]
      rw [show ({ c with blackoffset := g } : Camera F).setBlackoffset (.fin c.blackoffset) = .ok c from
        (C48_exact { c with blackoffset := g }).2 c.blackoffset hK]
    · unfold mostNonzero countNonzero
      rw [(hs _ _).1, (hs _ _).2, decide_eq_true_eq]
      have hc : ((Finset.range c.height ×ˢ Finset.range c.width).filter
          fun x => (im (k + i) y).px x.1 x.2 ≠ 0).card =
          ∑ r ∈ Finset.range c.height, ∑ s ∈ Finset.range c.width, if (im (k + i) y).px r s = 0 then 0 else 1 := by
        rw [Finset.card_filter, Finset.sum_product]
        refine Finset.sum_congr rfl fun r _ => Finset.sum_congr rfl fun s _ => ?_
        by_cases h : (im (k + i) y).px r s = 0 <;> simp [h]
      rw [hc]
      generalize (∑ r ∈ Finset.range c.height, ∑ s ∈ Finset.range c.width,
        if (im (k + i) y).px r s = 0 then 0 else 1) = t
      rw [← Nat.cast_lt (α := ℚ)]
      push_cast
      constructor <;> intro h <;> linarith

/-- C55: when grabbing fails during a search, the error is passed on and the camera keeps the setting that
was being tried. -/
theorem C55_error (grab : ℕ → Camera F → Except PyErr Img) (k : ℕ) (c c' : Camera F) (e : PyErr) :
    (c.K ∈ c.Ks → getGain grab k c = (c', .error e) →
      ∃ g ∈ c.Ks, c' = { c with K := g } ∧ ∃ j, grab j c' = .error e) ∧
    (c.blackoffset ∈ c.blackoffsets → getBlackoffset grab k c = (c', .error e) →
      ∃ b ∈ c.blackoffsets, c' = { c with blackoffset := b } ∧ ∃ j, grab j c' = .error e) := by
  constructor
  · intro hK h
    cases hks : c.Ks with
    | nil => rw [hks] at hK; cases hK
    | cons x ks =>
      unfold getGain at h
      rw [hks, show Np.idx (x :: ks) 0 = .ok x from rfl] at h
      simp only at h
      rcases hl : gainLoop grab (x :: ks) k c x with ⟨c1, _ | g⟩
      · rw [hl] at h
        cases h
        rw [← hks] at hl ⊢
        exact gainLoop_error grab c e c' c.Ks k c.K x (fun _ h => h) hl
      · rw [hl] at h
        simp only [restoreK] at h
        exfalso
        have hk1 : c1.Ks = c.Ks := by
          have : ∀ (l : List F) (k : ℕ) (c0 : Camera F) (g0 : F), (gainLoop grab l k c0 g0).1.Ks = c0.Ks := by
            intro l
            induction l with
            | nil => intros; rfl
            | cons y l ih =>
              intro k c0 g0
              unfold gainLoop
              cases hset : c0.setK (.fin y) with
              | error e1 => rfl
              | ok c2 =>
                have : c2.Ks = c0.Ks := by
                  unfold Camera.setK at hset
                  cases hn : nearestValue (.fin y) c0.Ks with
                  | error e1 => rw [hn] at hset; cases hset
                  | ok v => rw [hn] at hset; cases hset; rfl
                simp only
                split
                · exact this
                · split
                  · exact this
                  · split_ifs
                    · exact this
                    · rw [ih]; exact this
          have := this (x :: ks) k c x
          rwa [hl] at this
        have := (C48_exact c1).1 c.K (by rw [hk1]; exact hK)
        rw [this] at h
        cases h
  · intro hK h
    cases hks : c.blackoffsets with
    | nil => rw [hks] at hK; cases hK
    | cons x ks =>
      unfold getBlackoffset at h
      rw [hks, show Np.idx (x :: ks) 0 = .ok x from rfl] at h
      simp only at h
      rcases hl : offsetLoop grab (x :: ks) k c x with ⟨c1, _ | g⟩
      · rw [hl] at h
        cases h
        rw [← hks] at hl ⊢
        exact offsetLoop_error grab c e c' c.blackoffsets k c.blackoffset x (fun _ h => h) hl
      · rw [hl] at h
        simp only [restoreBlackoffset] at h
        exfalso
        have hk1 : c1.blackoffsets = c.blackoffsets := by
          have : ∀ (l : List F) (k : ℕ) (c0 : Camera F) (g0 : F),
              (offsetLoop grab l k c0 g0).1.blackoffsets = c0.blackoffsets := by
            intro l
            induction l with
            | nil => intros; rfl
            | cons y l ih =>
              intro k c0 g0
              unfold offsetLoop
              cases hset : c0.setBlackoffset (.fin y) with
              | error e1 => rfl
              | ok c2 =>
                have : c2.blackoffsets = c0.blackoffsets := by
                  unfold Camera.setBlackoffset at hset
                  cases hn : nearestValue (.fin y) c0.blackoffsets with
                  | error e1 => rw [hn] at hset; cases hset
                  | ok v => rw [hn] at hset; cases hset; rfl
                simp only
                split
                · exact this
                · split_ifs
                  · exact this
                  · rw [ih]; exact this
          have := this (x :: ks) k c x
          rwa [hl] at this
        have := (C48_exact c1).2 c.blackoffset (by rw [hk1]; exact hK)
        rw [this] at h
        cases h

/-- C55: an empty grid (which the constructor rejects) is an error. -/
theorem C55_empty (grab : ℕ → Camera F → Except PyErr Img) (k : ℕ) (c : Camera F) :
    (c.Ks = [] → getGain grab k c = (c, .error .indexError)) ∧
    (c.blackoffsets = [] → getBlackoffset grab k c = (c, .error .indexError)) := by
  constructor <;> intro h
  · unfold getGain; rw [h]; rfl
  · unfold getBlackoffset; rw [h]; rfl

end

/-- C55: with physical parameters both searches succeed for every outcome of the noise (which may depend on
the number of the image and on the settings), return an available setting and leave the camera unchanged. -/
theorem C55_simulator (o : Optics) (noise : ℕ → Camera ℝ → Noise ℝ) (k : ℕ) (c : Camera ℝ)
    (hK : c.K ∈ c.Ks) (hB : c.blackoffset ∈ c.blackoffsets)
    (hd : o.temperatureDoubling ≠ 0) (ht : 0 ≤ c.exposure) (hi : 0 ≤ o.darkCurrentRef) (ha : 0 ≤ o.pixelArea)
    (hqe : ∀ i j k, 0 ≤ o.qe i j k) (hp : ∀ i j, 0 ≤ o.prnu i j) :
    let grab := fun k c => grabRadiance c o (fun _ _ _ => .fin 0) none none (noise k c)
    (∃ g ∈ c.Ks, getGain grab k c = (c, .ok g)) ∧ (∃ b ∈ c.blackoffsets, getBlackoffset grab k c = (c, .ok b)) := by
  intro grab
  have hok : ∀ k (c' : Camera ℝ), c'.exposure = c.exposure → grab k c' = .ok (grabImg c' (noise k c')) := by
    intro k c' hc
    obtain ⟨img, h⟩ := C49_grab c' o (fun _ _ _ => 0) none none (noise k c') hd (by rw [hc]; exact ht) hi ha hqe hp
      (fun _ _ _ => le_rfl)
    have h' : grab k c' = .ok img := h
    rw [h']
    unfold grabRadiance at h
    rw [uTherm_ok _ _ _ hd] at h
    change (if _ then _ else if _ then _ else _ : Except PyErr Img) = _ at h
    split_ifs at h
    rw [← h]
  constructor
  · obtain ⟨m, g, h1, h2, -⟩ := C55_gain grab (fun k g => grabImg { c with K := g } (noise k { c with K := g })) k c hK
      (fun k g _ => hok k _ rfl) (fun _ _ => ⟨rfl, rfl⟩)
    exact ⟨g, List.mem_of_getElem? h2, h1⟩
  · obtain ⟨m, g, h1, h2, -⟩ := C55_blackoffset grab
      (fun k g => grabImg { c with blackoffset := g } (noise k { c with blackoffset := g })) k c hB
      (fun k g _ => hok k _ rfl) (fun _ _ => ⟨rfl, rfl⟩)
    exact ⟨g, List.mem_of_getElem? h2, h1⟩

/-! ### cases -/

/-- two draws of the same position: one bad pixel -/
example : ∃ dsnu, badPixel sampleCamera 2 (some 1) [3, 3] = .ok { sampleCamera with dsnu := dsnu } ∧
    dsnu 1 1 = 1000 ∧ dsnu 0 1 = 0 := by
  obtain ⟨d, h1, h2, h3, -⟩ := C54_pixels sampleCamera 2 1 [3, 3] rfl (by decide)
  refine ⟨d, h1, ?_, ?_⟩
  · rw [h2 1 1 (by decide) (by decide) (by decide)]; norm_num [sampleCamera]
  · rw [h3 0 1 (by decide) (by decide) (by decide)]; rfl

/-- images for the search: an image becomes noisy for gains above 2 -/
def searchImg (k : ℕ) (g : ℚ) : Img where
  h := 2
  w := 2
  px := fun i j => if 2 < g ∧ k % 2 = 0 then 3 * i + j else 0

example : getGain (fun k c => .ok (searchImg k c.K)) 0 sampleCamera = (sampleCamera, .ok 3) := by
  obtain ⟨m, g, h1, h2, h3, h4⟩ := C55_gain (fun k c => .ok (searchImg k c.K)) searchImg 0 sampleCamera (by decide +kernel)
    (fun _ _ _ => rfl) (fun _ _ => ⟨rfl, rfl⟩)
  rw [h1]
  congr 2
  have hks : sampleCamera.Ks = [1, 2, 3, 4] := by decide +kernel
  rw [hks] at h2 h3 h4
  have hbad : ∀ k g, ¬ 2 < g → ¬ NoisyDifference 2 2 (searchImg k g).px (searchImg (k + 1) g).px := by
    intro k g hg
    unfold NoisyDifference searchImg
    norm_num [hg, Finset.sum_range_succ]
  have hgood : NoisyDifference 2 2 (searchImg (0 + 2 * 2) 3).px (searchImg (0 + 2 * 2 + 1) 3).px := by
    unfold NoisyDifference searchImg
    norm_num [Finset.sum_range_succ]
  match m, h2 with
  | 0, h2 =>
    cases h2
    rcases h4 with h4 | h4
    · exact absurd h4 (hbad _ _ (by norm_num))
    · simp at h4
  | 1, h2 =>
    cases h2
    rcases h4 with h4 | h4
    · exact absurd h4 (hbad _ _ (by norm_num))
    · simp at h4
  | 2, h2 => cases h2; rfl
  | 3, h2 => exact absurd hgood (h3 2 3 (by omega) rfl)
  | n + 4, h2 => simp at h2

end Emva
