import Verif.Model.Dataset
import Verif.Spec.Shots
import Verif.Props.C63

/-! Lemmas about Model/Dataset. -/
set_option autoImplicit false
namespace Emva
namespace Disk
open Py Gen Spec
section
variable {ρ : Type} (S : Setup ρ) (c : Cfg)

/-- the points as Model/DatasetGenerator sees them -/
def seenPts (pts : List (ℚ × List ρ)) : Points := pts.map fun t => (t.1, t.2.map (radiance S t.1))

/-- the state after the images of `log` -/
structure Inv (log : List (ℚ × ρ)) (s : RunSt) : Prop where
  grabs : s.grabs = log.length
  number : s.st.number = log.length
  files : s.files = log.mapIdx fun n q => (fileOf c n, encode c.bits (S.grab n q.1 q.2))

theorem fileOf_inj : Function.Injective (fileOf c) := by
  intro i j hij
  unfold fileOf savePath at hij
  simp only [pathJoin, List.foldl_cons, List.foldl_nil] at hij
  have hsw : ∀ n, startsWith (imageName c n) ['/'] = false := fun n => rfl
  generalize join1 c.outdir "images".toList = d at hij
  have key : ∀ (d x y : Str), startsWith x ['/'] = false → startsWith y ['/'] = false →
      join1 d x = join1 d y → x = y := by
    intro d x y hx hy e
    rw [join1_eq hx, join1_eq hy] at e
    split at e
    · exact List.append_cancel_left e
    · exact (List.cons.inj (List.append_cancel_left e)).2
  have hn := key d _ _ (hsw i) (hsw j) hij
  unfold imageName at hn
  have := List.append_cancel_right (List.append_cancel_left hn)
  have e := congrArg digitsVal this
  rwa [digitsVal_fmtNat, digitsVal_fmtNat] at e

theorem map_mapIdx' {α β γ : Type} (f : ℕ → α → β) (g : β → γ) (l : List α) :
    (l.mapIdx f).map g = l.mapIdx fun i a => g (f i a) := by
  refine List.ext_getElem (by simp) fun i h1 h2 => by simp

theorem mapIdx_map' {α β γ : Type} (f : α → β) (g : ℕ → β → γ) (l : List α) :
    (l.map f).mapIdx g = l.mapIdx fun i a => g i (f a) := by
  refine List.ext_getElem (by simp) fun i h1 h2 => by simp

theorem set_fresh {V : Type} (d : Dict Str V) (k : Str) (v : V) (h : k ∉ Dict.keys d) : Dict.set d k v = d ++ [(k, v)] := by
  induction d with
  | nil => rfl
  | cons x d ih =>
    obtain ⟨a, b⟩ := x
    simp only [Dict.keys, List.map_cons, List.mem_cons, not_or] at h
    have h1 : ¬ a = k := fun e => h.1 e.symm
    simp only [Dict.set, h1, if_false, List.cons_append, List.cons.injEq, true_and]
    exact ih h.2

variable {S c}

theorem Inv.image {log : List (ℚ × ρ)} {s : RunSt} (h : Inv S c log s) (r : ρ) :
    Inv S c (log ++ [(s.exposure, r)]) (runImage S c r s) := by
  refine ⟨by simp [runImage, h.grabs], by simp [runImage, h.number], ?_⟩
  simp only [runImage]
  rw [set_fresh, h.files, h.grabs, h.number]
  · simp [List.mapIdx_append, fileOf]
  · rw [h.files, h.number]
    intro hm
    simp only [Dict.keys, map_mapIdx', List.mem_mapIdx] at hm
    obtain ⟨i, hi, he⟩ := hm
    have := fileOf_inj c he
    omega

theorem Inv.images {r : ρ} (l : ℕ) : ∀ {log : List (ℚ × ρ)} {s : RunSt}, Inv S c log s →
    Inv S c (log ++ List.replicate l (s.exposure, r)) (runImages S c r l s) ∧
      (runImages S c r l s).exposure = s.exposure ∧ (runImages S c r l s).st = genImages c l s.st := by
  induction l with
  | zero => intro log s h; simpa [runImages, genImages] using h
  | succ l ih =>
    intro log s h
    obtain ⟨h1, h2, h3⟩ := ih (h.image r)
    refine ⟨?_, h2, h3⟩
    have e : log ++ List.replicate (l + 1) (s.exposure, r) = log ++ [(s.exposure, r)] ++ List.replicate l (s.exposure, r) := by
      simp [List.replicate_succ]
    rw [e]
    exact h1

theorem Inv.point {L : ℕ} (rs : List ρ) : ∀ {log : List (ℚ × ρ)} {s : RunSt}, Inv S c log s →
    Inv S c (log ++ rs.flatMap fun r => List.replicate L (s.exposure, r)) (rs.foldl (runPoint S c L s.exposure) s) ∧
      (rs.foldl (runPoint S c L s.exposure) s).st
        = (rs.map (radiance S s.exposure)).foldl (genPoint c L s.exposure) s.st := by
  induction rs with
  | nil => intro log s h; simpa using h
  | cons r rs ih =>
    intro log s h
    have h0 : Inv S c log { s with
        st := { s.st with text := s.st.text ++ (descriptorLine s.exposure (radiance S s.exposure r) ++ ['\n']) } } :=
      ⟨h.grabs, h.number, h.files⟩
    obtain ⟨h1, h2, h3⟩ := h0.images (r := r) L
    have := ih h1
    simp only [h2] at this
    obtain ⟨i1, i2⟩ := this
    simp only [List.foldl_cons, List.map_cons, List.flatMap_cons, ← List.append_assoc]
    refine ⟨i1, ?_⟩
    rw [show genPoint c L s.exposure s.st (radiance S s.exposure r) = _ from h3.symm]
    exact i2

theorem Inv.kind {L : ℕ} (pts : List (ℚ × List ρ)) : ∀ {log : List (ℚ × ρ)} {s : RunSt}, Inv S c log s →
    Inv S c (log ++ (flatPoints pts).flatMap fun q => List.replicate L q) (runKind S c L pts s) ∧
      (runKind S c L pts s).st = genKind c L (seenPts S pts) s.st := by
  induction pts with
  | nil => intro log s h; simpa [runKind, flatPoints, genKind, seenPts] using h
  | cons p pts ih =>
    intro log s h
    have h0 : Inv S c log { s with exposure := p.1 } := ⟨h.grabs, h.number, h.files⟩
    obtain ⟨h1, h2⟩ := h0.point (L := L) p.2
    obtain ⟨i1, i2⟩ := ih h1
    refine ⟨?_, ?_⟩
    · have e : log ++ (flatPoints (p :: pts)).flatMap (fun q => List.replicate L q)
          = log ++ (p.2.flatMap fun r => List.replicate L (p.1, r))
            ++ (flatPoints pts).flatMap fun q => List.replicate L q := by
        simp [flatPoints, List.flatMap_map, List.flatMap_append]
      rw [e]
      exact i1
    · simp only [runKind, List.foldl_cons] at i2 ⊢
      rw [i2]
      simp only [genKind, seenPts, List.map_cons, List.foldl_cons]
      rw [h2]

variable (S c)

/-- the images in the order in which they are taken -/
def logOf (temporal spatial : List (ℚ × List ρ)) : List (ℚ × ρ) :=
  ((flatPoints temporal).flatMap fun q => List.replicate 2 q) ++
    (flatPoints spatial).flatMap fun q => List.replicate c.L q

theorem run_inv (e0 : ℚ) (temporal spatial : List (ℚ × List ρ)) :
    Inv S c (logOf c temporal spatial) (run S c e0 temporal spatial) := by
  have h0 : Inv S c [] (⟨⟨("v ".toList ++ c.version ++ ['\n']) ++
      ("n ".toList ++ (fmtNat c.bits ++ ' ' :: (fmtNat c.width ++ ' ' :: fmtNat c.height)) ++ ['\n']), 0, []⟩,
      e0, 0, []⟩ : RunSt) := ⟨rfl, rfl, rfl⟩
  have := ((h0.kind (L := 2) temporal).1.kind (L := c.L) spatial).1
  exact this

/-- The text and the names of the files are those of Model/DatasetGenerator. -/
theorem run_st (e0 : ℚ) (temporal spatial : List (ℚ × List ρ)) :
    (run S c e0 temporal spatial).st = runTest c (seenPts S temporal) (seenPts S spatial) := by
  have h0 : Inv S c [] (⟨⟨("v ".toList ++ c.version ++ ['\n']) ++
      ("n ".toList ++ (fmtNat c.bits ++ ' ' :: (fmtNat c.width ++ ' ' :: fmtNat c.height)) ++ ['\n']), 0, []⟩,
      e0, 0, []⟩ : RunSt) := ⟨rfl, rfl, rfl⟩
  obtain ⟨h1, h2⟩ := h0.kind (L := 2) temporal
  obtain ⟨-, h3⟩ := h1.kind (L := c.L) spatial
  unfold run runTest
  simp only
  rw [h3, h2]

theorem files_get (e0 : ℚ) (temporal spatial : List (ℚ × List ρ)) (n : ℕ) (e : ℚ) (r : ρ)
    (h : (logOf c temporal spatial)[n]? = some (e, r)) :
    Dict.get? (run S c e0 temporal spatial).files (fileOf c n) = some (encode c.bits (S.grab n e r)) := by
  rw [(run_inv S c e0 temporal spatial).files]
  refine Dict.get?_of_mem ?_ ?_
  · unfold Dict.WF Dict.keys
    rw [map_mapIdx']
    rw [List.nodup_iff_injective_getElem]
    intro a b hab
    simp only [List.getElem_mapIdx] at hab
    exact Fin.ext (fileOf_inj c hab)
  · obtain ⟨hn, he⟩ := List.getElem?_eq_some_iff.1 h
    exact List.mem_mapIdx.2 ⟨n, hn, by rw [he]⟩

theorem getElem_replicate {α : Type} (L : ℕ) (l : List α) : ∀ (j i : ℕ), i < L →
    (l.flatMap fun q => List.replicate L q)[L * j + i]? = l[j]? := by
  induction l with
  | nil => intro j i hi; simp
  | cons a l ih =>
    intro j i hi
    rw [List.flatMap_cons]
    cases j with
    | zero =>
      rw [List.getElem?_append_left (by simpa using hi)]
      simp [hi]
    | succ j =>
      rw [List.getElem?_append_right (by simp [Nat.mul_add]; omega)]
      have : L * (j + 1) + i - (List.replicate L a).length = L * j + i := by simp [Nat.mul_add]; omega
      rw [this, ih j i hi]
      simp

theorem numbered_const (L : ℕ) (l : List (ℚ × Option ℚ)) : ∀ n,
    numbered n (l.map fun q => (q.1, q.2, L))
      = l.mapIdx fun j q => (q.1, q.2, (List.range L).map (n + L * j + ·)) := by
  induction l with
  | nil => intro n; rfl
  | cons a l ih =>
    intro n
    rw [List.map_cons, numbered, ih, List.mapIdx_cons]
    congr 1
    refine congrArg (fun f => List.mapIdx f l) ?_
    funext j q
    have : n + L + L * j = n + L * (j + 1) := by ring
    rw [this]

theorem flat_seenPts (pts : List (ℚ × List ρ)) :
    flat (seenPts S pts) = (flatPoints pts).map fun q => (q.1, radiance S q.1 q.2) := by
  simp [flat, seenPts, flatPoints, List.flatMap_map, List.map_flatMap, Function.comp_def]

theorem numbered_append' (a b : List (ℚ × Option ℚ × ℕ)) : ∀ n,
    numbered n (a ++ b) = numbered n a ++ numbered (n + total a) b := by
  induction a with
  | nil => intro n; simp [numbered, total]
  | cons p a ih =>
    intro n
    simp only [List.cons_append, numbered, ih]
    simp [total, Nat.add_assoc]

/-- The numbers of the images of the points. -/
theorem numbered_plan (temporal spatial : List (ℚ × List ρ)) :
    numbered 0 (plan c.L (seenPts S temporal) (seenPts S spatial)) =
      ((flatPoints temporal).mapIdx fun j q => (q.1, radiance S q.1 q.2, (List.range 2).map (0 + 2 * j + ·))) ++
      ((flatPoints spatial).mapIdx fun j q => (q.1, radiance S q.1 q.2,
        (List.range c.L).map (2 * (flatPoints temporal).length + c.L * j + ·))) := by
  have e : ∀ (pts : List (ℚ × List ρ)) (k : ℕ), (seenPts S pts).flatMap (fun t => t.2.map fun r => (t.1, r, k))
      = (flat (seenPts S pts)).map fun q => (q.1, q.2, k) := by
    intro pts k
    simp [flat, List.map_flatMap, Function.comp_def]
  have t : total ((flat (seenPts S temporal)).map fun q => (q.1, q.2, 2)) = 2 * (flatPoints temporal).length := by
    rw [flat_seenPts]
    simp [total, Function.comp_def, Nat.mul_comm]
  unfold plan
  rw [e, e, numbered_append', numbered_const, numbered_const, t, flat_seenPts, flat_seenPts, Nat.zero_add]
  simp only [mapIdx_map']

end
end Disk
end Emva
