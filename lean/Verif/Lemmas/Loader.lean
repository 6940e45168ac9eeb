import Verif.Model.Loader
import Verif.Spec.Loader
import Verif.Lemmas.Parser

set_option autoImplicit false
set_option linter.unusedSectionVars false
namespace Emva
namespace Loader
open Py Emva.Parser Spec
variable {K : Type} [DecidableEq K] {V : Type*}
variable (fload : Str → Option (Except PyErr Img)) (path : Str)

/-- shapes seen after loading `imgs` -/
def addShapes (sh : List (ℕ × ℕ)) (imgs : List Img) : List (ℕ × ℕ) :=
  imgs.foldl (fun s i => addShape s i.shape) sh

theorem length_addShape (sh : List (ℕ × ℕ)) (s : ℕ × ℕ) : sh.length ≤ (addShape sh s).length := by
  unfold addShape; split <;> simp

theorem mem_addShape (sh : List (ℕ × ℕ)) (s t : ℕ × ℕ) : t ∈ addShape sh s ↔ t ∈ sh ∨ t = s := by
  unfold addShape
  split
  · rename_i h
    constructor
    · exact .inl
    · rintro (h' | rfl)
      · exact h'
      · exact h
  · simp

theorem nodup_addShape {sh : List (ℕ × ℕ)} (h : sh.Nodup) (s : ℕ × ℕ) : (addShape sh s).Nodup := by
  unfold addShape
  split
  · exact h
  · rename_i hs
    rw [List.nodup_append]
    exact ⟨h, by simp, fun a ha b hb => by simp at hb; subst hb; rintro rfl; exact hs ha⟩

theorem length_addShapes (sh : List (ℕ × ℕ)) (imgs : List Img) :
    sh.length ≤ (addShapes sh imgs).length := by
  induction imgs generalizing sh with
  | nil => simp [addShapes]
  | cons i is ih => exact (length_addShape sh i.shape).trans (ih _)

theorem mem_addShapes (sh : List (ℕ × ℕ)) (imgs : List Img) (t : ℕ × ℕ) :
    t ∈ addShapes sh imgs ↔ t ∈ sh ∨ ∃ i ∈ imgs, i.shape = t := by
  induction imgs generalizing sh with
  | nil => simp [addShapes]
  | cons i is ih =>
    have := ih (addShape sh i.shape)
    rw [show addShapes sh (i :: is) = addShapes (addShape sh i.shape) is from rfl, this,
      mem_addShape]
    simp only [List.mem_cons, exists_eq_or_imp]
    tauto

theorem nodup_addShapes {sh : List (ℕ × ℕ)} (h : sh.Nodup) (imgs : List Img) :
    (addShapes sh imgs).Nodup := by
  induction imgs generalizing sh with
  | nil => exact h
  | cons i is ih => exact ih (nodup_addShape h _)

theorem addShapes_append (sh : List (ℕ × ℕ)) (a b : List Img) :
    addShapes sh (a ++ b) = addShapes (addShapes sh a) b := by
  simp [addShapes]

theorem imageAt_some {f : Str} {img : Img} :
    imageAt fload path f = some img ↔ fload (join1 path f) = some (.ok img) := by
  unfold imageAt
  split
  · rename_i h; rw [h]; simp
  · rename_i h
    constructor
    · simp
    · intro e; exact absurd e (h img)

/-- success of `_load_imgs` -/
theorem loadImgs_ok (fs : List Str) (sh : List (ℕ × ℕ)) (imgs : List Img) (sh' : List (ℕ × ℕ))
    (hsh : sh.length ≤ 1) :
    loadImgs fload path fs sh = .ok (imgs, sh') ↔
      (∀ f ∈ fs, (imageAt fload path f).isSome) ∧ imgs = imagesAt fload path fs ∧
        sh' = addShapes sh imgs ∧ sh'.length ≤ 1 := by
  induction fs generalizing sh imgs sh' with
  | nil =>
    simp only [loadImgs, imagesAt]
    constructor
    · intro h
      simp at h
      obtain ⟨rfl, rfl⟩ := h
      simp [addShapes, hsh]
    · rintro ⟨-, rfl, rfl, -⟩
      rfl
  | cons f fs ih =>
    simp only [loadImgs]
    split
    · rename_i h
      have : imageAt fload path f = none := by simp [imageAt, h]
      simp [this]
    · rename_i h
      have : imageAt fload path f = none := by simp [imageAt, h]
      simp [this]
    · rename_i img h
      have hf : imageAt fload path f = some img := (imageAt_some fload path).2 h
      have hc : imagesAt fload path (f :: fs) = img :: imagesAt fload path fs := by
        simp [imagesAt, hf]
      have ha : ∀ l, addShapes sh (img :: l) = addShapes (addShape sh img.shape) l := fun _ => rfl
      simp only [List.mem_cons, forall_eq_or_imp, hf, Option.isSome_some, true_and, hc]
      split
      · rename_i hlt
        simp only [reduceCtorEq, false_iff]
        rintro ⟨-, rfl, rfl, hl⟩
        rw [ha] at hl
        have := length_addShapes (addShape sh img.shape) (imagesAt fload path fs)
        omega
      · rename_i hlt
        have ih' := ih (addShape sh img.shape) (imagesAt fload path fs)
          (addShapes (addShape sh img.shape) (imagesAt fload path fs)) (by omega)
        constructor
        · intro h'
          split at h'
          · simp at h'
          · rename_i imgs' sh'' he
            simp at h'
            obtain ⟨rfl, rfl⟩ := h'
            obtain ⟨h1, rfl, rfl, h4⟩ := (ih _ _ _ (by omega)).1 he
            exact ⟨h1, rfl, rfl, h4⟩
        · rintro ⟨h1, rfl, rfl, h4⟩
          rw [ha] at h4 ⊢
          rw [ih'.2 ⟨h1, rfl, rfl, h4⟩]

theorem get2_set (d : Dict K (Dict K V)) (e e' p' : K) (i : Dict K V) :
    get2 (Dict.set d e i) e' p' = if e = e' then Dict.get? i p' else get2 d e' p' := by
  unfold get2
  rw [Dict.get?_set]
  split <;> simp

theorem get2_step (d : Dict K (Dict K V)) (e p e' p' : K) (v : V) :
    get2 (Dict.set (Dict.setdefault d e []) e
      (Dict.set ((Dict.get? (Dict.setdefault d e []) e).getD []) p v)) e' p'
      = if e = e' ∧ p = p' then some v else get2 d e' p' := by
  rw [get2_set]
  by_cases he : e = e'
  · subst he
    simp only [if_true, Dict.get?_setdefault, Option.getD_some, Dict.get?_set, true_and]
    split
    · rfl
    · unfold get2
      cases Dict.get? d e <;> simp
  · simp only [he, if_false, false_and]
    unfold get2
    rw [Dict.get?_setdefault, if_neg he]

/-- no empty inner dictionary, keys distinct -/
def Full (d : Dict K (Dict K V)) : Prop :=
  Dict.WF d ∧ ∀ e i, Dict.get? d e = some i → Dict.WF i ∧ i ≠ []

theorem full_step {d : Dict K (Dict K V)} (hd : Full d) (e p : K) (v : V) :
    Full (Dict.set (Dict.setdefault d e []) e
      (Dict.set ((Dict.get? (Dict.setdefault d e []) e).getD []) p v)) := by
  refine ⟨(hd.1.setdefault e []).set _ _, ?_⟩
  intro e' i hi
  rw [Dict.get?_set] at hi
  split at hi
  · simp only [Option.some.injEq] at hi
    subst hi
    refine ⟨?_, ?_⟩
    · apply Dict.WF.set
      rw [Dict.get?_setdefault, if_pos rfl]
      simp only [Option.getD_some]
      cases hg : Dict.get? d e with
      | none => exact Dict.wf_nil
      | some j => exact (hd.2 e j hg).1
    · intro hnil
      have := Dict.get?_set_self ((Dict.get? (Dict.setdefault d e []) e).getD []) p v
      rw [hnil] at this
      simp at this
  · rename_i hne
    rw [Dict.get?_setdefault, if_neg hne] at hi
    exact hd.2 e' i hi

/-- images of all the series of an exposure, in dictionary order -/
def innerImgs (inner : List (K × List Str)) : List Img :=
  inner.flatMap fun p => imagesAt fload path p.2

theorem loadPhotons_ok (red : List Img → V) (e : K) (inner : List (K × List Str))
    (data : KindData K V) (sh : List (ℕ × ℕ)) (st : KindData K V × List (ℕ × ℕ))
    (hsh : sh.length ≤ 1) (hw : Dict.WF inner) :
    (loadPhotons fload path red e inner (data, sh) = .ok st →
      ((∀ p fs, (p, fs) ∈ inner → ∀ f ∈ fs, (imageAt fload path f).isSome) ∧
        st.2 = addShapes sh (innerImgs fload path inner) ∧ st.2.length ≤ 1 ∧
        (∀ e' p', get2 st.1 e' p' =
          if e = e' ∧ p' ∈ Dict.keys inner then
            (Dict.get? inner p').map fun fs => red (imagesAt fload path fs)
          else get2 data e' p') ∧ (Full data → Full st.1))) ∧
    ((∀ p fs, (p, fs) ∈ inner → ∀ f ∈ fs, (imageAt fload path f).isSome) →
      (addShapes sh (innerImgs fload path inner)).length ≤ 1 →
      ∃ st, loadPhotons fload path red e inner (data, sh) = .ok st) := by
  induction inner generalizing data sh with
  | nil =>
    constructor
    · intro h
      simp [loadPhotons] at h
      subst h
      simp [innerImgs, addShapes, hsh, Dict.keys]
    · intro _ _
      exact ⟨_, rfl⟩
  | cons pf rest ih =>
    obtain ⟨p, fs⟩ := pf
    have hw' : Dict.WF (rest : Dict K (List Str)) := by
      unfold Dict.WF Dict.keys at hw ⊢
      exact (List.nodup_cons.1 hw).2
    have hp : p ∉ Dict.keys rest := by
      unfold Dict.WF Dict.keys at hw
      exact (List.nodup_cons.1 hw).1
    have hin : innerImgs fload path ((p, fs) :: rest)
        = imagesAt fload path fs ++ innerImgs fload path rest := by simp [innerImgs]
    constructor
    · intro h
      simp only [loadPhotons] at h
      split at h
      · simp at h
      · rename_i imgs sh' he
        obtain ⟨h1, rfl, rfl, h4⟩ := (loadImgs_ok fload path fs sh _ _ hsh).1 he
        obtain ⟨g1, g2, g3, g4, g5⟩ := (ih _ _ h4 hw').1 h
        refine ⟨?_, ?_, g3, ?_, fun hf => g5 (full_step hf e p _)⟩
        · intro q gs hq
          rcases List.mem_cons.1 hq with hq | hq
          · simp at hq
            obtain ⟨rfl, rfl⟩ := hq
            exact h1
          · exact g1 q gs hq
        · rw [g2, hin, addShapes_append]
        · intro e' p'
          rw [g4, get2_step]
          simp only [Dict.keys, List.map_cons, List.mem_cons, Dict.get?]
          by_cases he : e = e'
          · by_cases hpp : p = p'
            · subst hpp
              have : p ∉ List.map (·.1) rest := hp
              simp [he, this]
            · have hne : ¬ p' = p := fun h => hpp h.symm
              simp only [hpp, hne, and_false, if_false, false_or]
          · simp [he]
    · intro h1 h2
      rw [hin, addShapes_append] at h2
      have hl : (addShapes sh (imagesAt fload path fs)).length ≤ 1 :=
        (length_addShapes _ _).trans h2
      have := (loadImgs_ok fload path fs sh _ _ hsh).2
        ⟨fun f hf => h1 p fs (by simp) f hf, rfl, rfl, hl⟩
      simp only [loadPhotons, this]
      exact (ih _ _ hl hw').2 (fun q gs hq => h1 q gs (List.mem_cons_of_mem _ hq)) h2

/-- images of a list of exposures -/
def kindImgs (images : Images K) (es : List K) : List Img :=
  es.flatMap fun e => innerImgs fload path ((Dict.get? images e).getD [])

/-- requirement on one exposure -/
def ExpOK (zero : K) (images : Images K) (e : K) : Prop :=
  ∃ inner, Dict.get? images e = some inner ∧ zero ∈ Dict.keys inner ∧
    2 ≤ (Dict.keys inner).length ∧
    ∀ p fs, (p, fs) ∈ inner → ∀ f ∈ fs, (imageAt fload path f).isSome

theorem loadExposures_ok (red : List Img → V) (zero : K) (images : Images K) (es : List K)
    (data : KindData K V) (sh : List (ℕ × ℕ)) (hsh : sh.length ≤ 1) (hnd : es.Nodup)
    (hw : ∀ e i, Dict.get? images e = some i → Dict.WF i) :
    (∀ st, loadExposures fload path red zero images es (data, sh) = .ok st →
      ((∀ e ∈ es, ExpOK fload path zero images e) ∧
        st.2 = addShapes sh (kindImgs fload path images es) ∧ st.2.length ≤ 1 ∧
        (∀ e' p', get2 st.1 e' p' =
          if e' ∈ es ∧ (get2 images e' p').isSome then
            (get2 images e' p').map fun fs => red (imagesAt fload path fs)
          else get2 data e' p') ∧ (Full data → Full st.1))) ∧
    ((∀ e ∈ es, ExpOK fload path zero images e) →
      (addShapes sh (kindImgs fload path images es)).length ≤ 1 →
      ∃ st, loadExposures fload path red zero images es (data, sh) = .ok st) := by
  induction es generalizing data sh with
  | nil =>
    constructor
    · intro st h
      simp [loadExposures] at h
      subst h
      simp [kindImgs, addShapes, hsh]
    · intro _ _
      exact ⟨_, rfl⟩
  | cons e es ih =>
    obtain ⟨hne, hnd'⟩ := List.nodup_cons.1 hnd
    have hk : kindImgs fload path images (e :: es)
        = innerImgs fload path ((Dict.get? images e).getD []) ++ kindImgs fload path images es := by
      simp [kindImgs]
    constructor
    · intro st h
      simp only [loadExposures] at h
      split at h
      · simp at h
      · rename_i inner hg
        split at h
        · simp at h
        · rename_i hz
          split at h
          · simp at h
          · rename_i hlen
            split at h
            · simp at h
            · rename_i st' hp
              obtain ⟨p1, p2, p3, p4, p5⟩ :=
                (loadPhotons_ok fload path red e inner data sh st' hsh (hw e inner hg)).1 hp
              obtain ⟨g1, g2, g3, g4, g5⟩ := (ih st'.1 st'.2 p3 hnd').1 st h
              refine ⟨?_, ?_, g3, ?_, fun hf => g5 (p5 hf)⟩
              · intro e' he'
                rcases List.mem_cons.1 he' with rfl | he'
                · exact ⟨inner, hg, not_not.1 hz, by omega, p1⟩
                · exact g1 e' he'
              · rw [g2, hk, addShapes_append, hg, p2]
                rfl
              · intro e' p'
                rw [g4, p4]
                by_cases he : e = e'
                · subst he
                  have hx : get2 images e p' = Dict.get? inner p' := by simp [get2, hg]
                  simp only [hne, false_and, if_false, List.mem_cons, true_or, true_and, hx]
                  have hm := Dict.has_iff inner p'
                  unfold Dict.has at hm
                  by_cases hk' : p' ∈ Dict.keys inner
                  · rw [if_pos hk', if_pos (hm.2 hk')]
                  · rw [if_neg hk', if_neg fun h => hk' (hm.1 h)]
                · have he' : ¬ e' = e := fun h => he h.symm
                  simp [he, he']
    · intro h1 h2
      rw [hk, addShapes_append] at h2
      obtain ⟨inner, hg, hz, hlen, hr⟩ := h1 e (by simp)
      rw [hg] at h2
      have hl : (addShapes sh (innerImgs fload path inner)).length ≤ 1 :=
        (length_addShapes _ _).trans h2
      obtain ⟨st', hst'⟩ :=
        (loadPhotons_ok fload path red e inner data sh (data, sh) hsh (hw e inner hg)).2 hr hl
      obtain ⟨-, p2, p3, -, -⟩ :=
        (loadPhotons_ok fload path red e inner data sh st' hsh (hw e inner hg)).1 hst'
      simp only [loadExposures, hg, hz, not_true_eq_false, if_false, hst',
        if_neg (Nat.not_lt.2 hlen)]
      refine (ih st'.1 st'.2 p3 hnd').2 (fun x hx => h1 x (List.mem_cons_of_mem _ hx)) ?_
      rw [p2]
      exact h2

/-- errors -/
theorem loadImgs_error (fs : List Str) (sh : List (ℕ × ℕ)) (e : PyErr)
    (h : loadImgs fload path fs sh = .error e) :
    e = .ioError ∨ e = .valueError ∨ ∃ f, fload f = some (.error e) := by
  induction fs generalizing sh with
  | nil => simp [loadImgs] at h
  | cons f fs ih =>
    simp only [loadImgs] at h
    split at h
    · simp at h; exact .inl h.symm
    · rename_i e' he; simp at h; subst h; exact .inr (.inr ⟨_, he⟩)
    · split at h
      · simp at h; exact .inr (.inl h.symm)
      · split at h
        · rename_i e' he
          simp at h; subst h; exact ih _ he
        · simp at h

theorem loadPhotons_error (red : List Img → V) (x : K) (inner : List (K × List Str))
    (st : KindData K V × List (ℕ × ℕ)) (e : PyErr)
    (h : loadPhotons fload path red x inner st = .error e) :
    e = .ioError ∨ e = .valueError ∨ ∃ f, fload f = some (.error e) := by
  induction inner generalizing st with
  | nil => simp [loadPhotons] at h
  | cons pf rest ih =>
    obtain ⟨p, fs⟩ := pf
    obtain ⟨data, sh⟩ := st
    simp only [loadPhotons] at h
    split at h
    · rename_i e' he
      simp at h; subst h; exact loadImgs_error fload path _ _ _ he
    · exact ih _ h

theorem loadExposures_error (red : List Img → V) (zero : K) (images : Images K) (es : List K)
    (hes : ∀ x ∈ es, x ∈ Dict.keys images)
    (st : KindData K V × List (ℕ × ℕ)) (e : PyErr)
    (h : loadExposures fload path red zero images es st = .error e) :
    e = .ioError ∨ e = .valueError ∨ ∃ f, fload f = some (.error e) := by
  induction es generalizing st with
  | nil => simp [loadExposures] at h
  | cons x es ih =>
    simp only [loadExposures] at h
    split at h
    · rename_i hg
      exact absurd (hes x (by simp)) ((Dict.get?_eq_none_iff _ _).1 hg)
    · split at h
      · simp at h; exact .inr (.inl h.symm)
      · split at h
        · simp at h; exact .inr (.inl h.symm)
        · split at h
          · rename_i e' he
            simp at h; subst h; exact loadPhotons_error fload path red _ _ _ _ he
          · exact ih (fun y hy => hes y (List.mem_cons_of_mem _ hy)) _ h

end Loader
end Emva
