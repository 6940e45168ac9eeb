import Verif.Lemmas.AffinePipeline
import Verif.Props.C07_C12
import Verif.Props.C22_C24

/-!
C62 (offset) and C64 (gain): the whole evaluation of a dataset (loader, `Data1288`, `Results1288`) when every pixel
value `x` of every image becomes `g * x + c`.
-/
set_option autoImplicit false
set_option linter.unusedSectionVars false
namespace Emva
open Py Loader Spec Data Results Parser Pipeline

/-- Two evaluations have the same outcome up to `p`: they raise the same exception, or give two results
objects related by `p`. -/
def SameOutcome (p : Res ℝ → Res ℝ → Prop) : Except PyErr (Res ℝ) → Except PyErr (Res ℝ) → Prop
  | .error e, .error e' => e = e'
  | .ok r, .ok r' => p r r'
  | _, _ => False

/-- every pixel value of every readable image is non-negative, with and without the offset -/
def NonnegPixels (c : ℤ) (fload : Str → Option (Except PyErr Img)) : Prop :=
  ∀ f img, fload f = some (.ok img) → ∀ i < img.h, ∀ j < img.w, 0 ≤ img.px i j ∧ 0 ≤ img.px i j + c

variable (fload : Str → Option (Except PyErr Img)) (path : Str) (ord : List ℝ → List ℝ)
  (images : Kind → Images ℝ) (pixels : Option ℕ) (pixel_area : Option ℝ) (index_u_ysat : Option ℤ)

/-- C62: adding a constant to every pixel of every image changes no attribute of the results, after any
sequence of reads: each has the same value, or raises the same exception.  (All temporal series must have
the same number `N` of images, and for the accumulated DSNU histogram, which discards negative
deviations from zero, the pixel values must not become negative.)  A dataset that is rejected is rejected
with the same exception. -/
theorem C62_offset_invariance (q : LSQ ℝ) (hq : q.Good) (c : ℤ) (N : ℕ)
    (hN : ∀ e ∈ images .temporal, ∀ p ∈ e.2, p.2.length = N) :
    SameOutcome (fun r r' => ∀ (l l' : List Attr) (a : Attr),
        (a = .histogram_DSNU_accumulated → NonnegPixels c fload) →
        (Results.read q a (Results.readAll q l' r')).1 = (Results.read q a (Results.readAll q l r)).1)
      (evaluate id fload path ord images pixels pixel_area index_u_ysat)
      (evaluate id (affFiles 1 c fload) path ord images pixels pixel_area index_u_ysat) := by
  obtain ⟨δ, hδ⟩ := evaluate_aff 1 c one_pos fload path ord images pixels pixel_area index_u_ysat N hN
  rw [hδ]
  cases h : evaluate id fload path ord images pixels pixel_area index_u_ysat with
  | error e => rfl
  | ok r =>
    intro l l' a ha
    obtain ⟨hf, hn⟩ := evaluate_facts c fload path ord images pixels pixel_area index_u_ysat r h
    rw [(C24_reads_have_no_effect q l' a _).1, (C24_reads_have_no_effect q l a _).1]
    have := eqv_read (Q := fun t s => t = r.temporal ∧ s = r.spatial) (g := 1) (c := c) (d := δ) one_pos q a
      ((exponent a).getD 0) (by cases exponent a with
        | none => exact .inr ⟨rfl, rfl⟩
        | some e => exact .inl rfl)
      (by
        rintro t s ⟨rfl, rfl⟩
        exact ⟨.inl rfl, .inr ⟨hq, hf.texp, hf.complete.len_sd, hf.complete.fin_d, hf.complete.fin_sd⟩, hf.L,
          fun e => hn (ha e)⟩) r ⟨rfl, rfl⟩
    rw [this.1]
    cases (Results.read q a r).1 with
    | error e => rfl
    | ok v => simp [Except.map, convert_one]

/-- C64: multiplying every pixel of every image by `g` (and adding any constant) multiplies every attribute whose
unit contains DN to the power `e` by `g ^ e`: `R` and `K` by `g`, variances by `g ^ 2`, and leaves those
that are not in DN (`QE`, `DSNU1288`, `PRNU1288`, `u_p_sat`, `SNR_max`, the linearity errors, ...)
unchanged.  The fits must be determined: at the first bright point the photon count is not zero and the
mean differs from the dark mean. -/
theorem C64_gain_equivariance (q : LSQ ℝ) (hq : q.Good) (g c : ℤ) (hg : 0 < g) (N : ℕ)
    (hN : ∀ e ∈ images .temporal, ∀ p ∈ e.2, p.2.length = N) :
    SameOutcome (fun r r' =>
        (∀ p, r.temporal.u_p.head? = some p → p ≠ 0) →
        (∀ y d, r.temporal.u_y.head? = some y → r.temporal.u_ydark.head? = some d → y ≠ d) →
        ∀ (l l' : List Attr) (a : Attr) (e : ℤ), exponent a = some e →
        (Results.read q a (Results.readAll q l' r')).1 =
          (Results.read q a (Results.readAll q l r)).1.map (convert ((g : ℝ) ^ e)))
      (evaluate id fload path ord images pixels pixel_area index_u_ysat)
      (evaluate id (affFiles g c fload) path ord images pixels pixel_area index_u_ysat) := by
  obtain ⟨δ, hδ⟩ := evaluate_aff g c hg fload path ord images pixels pixel_area index_u_ysat N hN
  rw [hδ]
  cases h : evaluate id fload path ord images pixels pixel_area index_u_ysat with
  | error e => rfl
  | ok r =>
    intro hp hy l l' a e ha
    obtain ⟨hf, -⟩ := evaluate_facts c fload path ord images pixels pixel_area index_u_ysat r h
    rw [(C24_reads_have_no_effect q l' a _).1, (C24_reads_have_no_effect q l a _).1]
    have := eqv_read (Q := fun t s => t = r.temporal ∧ s = r.spatial) (g := g) (c := c) (d := δ) hg q a e (.inl ha)
      (by
        rintro t s ⟨rfl, rfl⟩
        exact ⟨.inr ⟨hq, hf.complete.len_p, hf.complete.len_s, hf.complete.len_sd, hf.bal, hf.complete.fin_y,
            hf.complete.fin_d, hf.complete.fin_s, hf.complete.fin_sd, hp, hy⟩,
          .inr ⟨hq, hf.texp, hf.complete.len_sd, hf.complete.fin_d, hf.complete.fin_sd⟩, hf.L,
          fun e => by rw [e] at ha; simp [exponent] at ha⟩) r ⟨rfl, rfl⟩
    rw [this.1]

/-- C62, C64: inside the envelope of C04 the int64 accumulators of the code give the same evaluation as exact
integers, so both theorems hold for the code as it is. -/
theorem C64_int64 (P : ℕ) (B : ℤ) (he : Envelope fload images P B) :
    evaluate i64 fload path ord images pixels pixel_area index_u_ysat =
      evaluate id fload path ord images pixels pixel_area index_u_ysat :=
  evaluate_i64 fload path ord images pixels pixel_area index_u_ysat P B he

/-! ### from the descriptor file -/

theorem parse_mem {pf : Str → Option ℝ} {pi : Str → Option ℤ} {fname text : Str} {r : Desc ℝ}
    (h : parse pf pi 0 fname none text = .ok r) (k : Kind) (e : ℝ × Dict ℝ (List Str)) (he : e ∈ r.images k)
    (p : ℝ × List Str) (hp : p ∈ e.2) : r.lookup k e.1 p.1 = some p.2 := by
  obtain ⟨ss, -, -, hm⟩ := C07_sound pf pi 0 fname none text r h
  have h1 := Dict.get?_of_mem (hm.wf k).1 (k := e.1) (v := e.2) he
  unfold Desc.lookup
  rw [h1]
  exact Dict.get?_of_mem ((hm.wf k).2 _ _ h1) hp

variable (pf : Str → Option ℝ) (pi : Str → Option ℤ) (fname text : Str)

/-- What a dataset needs for exact int64 sums, with the pixel values `g * x + c` as well as without: `bits`-like
bound `B` of the pixel values, at most `P` pixels per image, at most `L` images in a spatial series. -/
structure SmallEnough (g c : ℤ) (P L : ℕ) (B : ℤ) : Prop where
  pixel : ∀ f img, fload f = some (.ok img) → ∀ i j, 0 ≤ img.px i j ∧ img.px i j ≤ B
  pixel' : ∀ f img, fload f = some (.ok img) → ∀ i j, 0 ≤ g * img.px i j + c ∧ g * img.px i j + c ≤ B
  size : ∀ f img, fload f = some (.ok img) → img.h * img.w ≤ P
  stack : ∀ r, parse pf pi 0 fname none text = .ok r → ∀ e p fs, r.lookup .spatial e p = some fs → fs.length ≤ L
  images : 1 ≤ P ∧ (P : ℤ) * (8 * B ^ 2) < 2 ^ 65
  spatial : (L : ℤ) ^ 3 * B ^ 2 < 2 ^ 65

variable {fload pf pi fname text}

theorem SmallEnough.envelope {g c : ℤ} {P L : ℕ} {B : ℤ} (hs : SmallEnough fload pf pi fname text g c P L B) {r : Desc ℝ}
    (h : parse pf pi 0 fname none text = .ok r) :
    Envelope fload r.images P B ∧ Envelope (affFiles g c fload) r.images P B := by
  have ht : ∀ e ∈ r.images .temporal, ∀ p ∈ e.2, 2 ≤ p.2.length ∧ (p.2.length : ℤ) ^ 3 * B ^ 2 < 2 ^ 65 ∧
      (P : ℤ) * ((p.2.length : ℤ) ^ 3 * B ^ 2) < 2 ^ 65 := by
    intro e he p hp
    have h2 := (C09_kind_by_count pf pi 0 fname none text r h _ _ _).1 (parse_mem h _ e he p hp)
    obtain ⟨i1, i2⟩ := hs.images
    rw [h2]
    have i3 : (1 : ℤ) ≤ P := by exact_mod_cast i1
    refine ⟨le_rfl, ?_, by push_cast; norm_num at i2 ⊢; linarith⟩
    push_cast
    nlinarith [sq_nonneg B]
  have hsp : ∀ e ∈ r.images .spatial, ∀ p ∈ e.2, (p.2.length : ℤ) ^ 3 * B ^ 2 < 2 ^ 65 := by
    intro e he p hp
    have h2 := hs.stack r h _ _ _ (parse_mem h _ e he p hp)
    refine lt_of_le_of_lt ?_ hs.spatial
    have h3 : (p.2.length : ℤ) ≤ L := by exact_mod_cast h2
    exact mul_le_mul_of_nonneg_right (pow_le_pow_left₀ (by positivity) h3 3) (sq_nonneg B)
  refine ⟨⟨hs.pixel, hs.size, ht, hsp⟩, ⟨?_, ?_, ht, hsp⟩⟩
  · intro f img hf
    simp only [affFiles, Option.map_eq_some_iff] at hf
    obtain ⟨x, hx, hx'⟩ := hf
    cases x with
    | error e => simp [Except.map] at hx'
    | ok a =>
      simp only [Except.map, Except.ok.injEq] at hx'
      subst hx'
      exact hs.pixel' f a hx
  · intro f img hf
    simp only [affFiles, Option.map_eq_some_iff] at hf
    obtain ⟨x, hx, hx'⟩ := hf
    cases x with
    | error e => simp [Except.map] at hx'
    | ok a =>
      simp only [Except.map, Except.ok.injEq] at hx'
      subst hx'
      exact hs.size f a hx

/-- C62 for `Emva1288(fname)` on a descriptor file and int64 sums: with every pixel value increased by `c`
the evaluation raises the same exception, or all attributes keep their values. -/
theorem C62_emva1288 (q : LSQ ℝ) (hq : q.Good) (c : ℤ) (P L : ℕ) (B : ℤ)
    (hs : SmallEnough fload pf pi fname text 1 c P L B) :
    SameOutcome (fun r r' => ∀ (l l' : List Attr) (a : Attr),
        (Results.read q a (Results.readAll q l' r')).1 = (Results.read q a (Results.readAll q l r)).1)
      (emva1288 i64 pf pi fload ord fname text)
      (emva1288 i64 pf pi (affFiles 1 c fload) ord fname text) := by
  unfold emva1288
  cases h : parse pf pi 0 fname none text with
  | error e => rfl
  | ok d =>
    obtain ⟨e1, e2⟩ := hs.envelope h
    simp only [bind, Except.bind]
    rw [C64_int64 _ _ _ _ _ _ _ P B e1, C64_int64 _ _ _ _ _ _ _ P B e2]
    have := C62_offset_invariance fload [] ord d.images none none none q hq c 2
      (fun e he p hp => (C09_kind_by_count pf pi 0 fname none text d h _ _ _).1 (parse_mem h _ e he p hp))
    revert this
    cases evaluate id fload [] ord d.images none none none <;>
      cases evaluate id (affFiles 1 c fload) [] ord d.images none none none <;>
      simp only [SameOutcome, imp_self]
    intro this l l' a
    refine this l l' a fun _ f img hf i _ j _ => ⟨(hs.pixel f img hf i j).1, ?_⟩
    have := (hs.pixel' f img hf i j).1
    omega

/-- C64 for `Emva1288(fname)` on a descriptor file and int64 sums. -/
theorem C64_emva1288 (q : LSQ ℝ) (hq : q.Good) (g c : ℤ) (hg : 0 < g) (P L : ℕ) (B : ℤ)
    (hs : SmallEnough fload pf pi fname text g c P L B) :
    SameOutcome (fun r r' =>
        (∀ p, r.temporal.u_p.head? = some p → p ≠ 0) →
        (∀ y d, r.temporal.u_y.head? = some y → r.temporal.u_ydark.head? = some d → y ≠ d) →
        ∀ (l l' : List Attr) (a : Attr) (e : ℤ), exponent a = some e →
        (Results.read q a (Results.readAll q l' r')).1 =
          (Results.read q a (Results.readAll q l r)).1.map (convert ((g : ℝ) ^ e)))
      (emva1288 i64 pf pi fload ord fname text)
      (emva1288 i64 pf pi (affFiles g c fload) ord fname text) := by
  unfold emva1288
  cases h : parse pf pi 0 fname none text with
  | error e => rfl
  | ok d =>
    obtain ⟨e1, e2⟩ := hs.envelope h
    simp only [bind, Except.bind]
    rw [C64_int64 _ _ _ _ _ _ _ P B e1, C64_int64 _ _ _ _ _ _ _ P B e2]
    exact C64_gain_equivariance fload [] ord d.images none none none q hq g c hg 2
      (fun e he p hp => (C09_kind_by_count pf pi 0 fname none text d h _ _ _).1 (parse_mem h _ e he p hp))

end Emva
