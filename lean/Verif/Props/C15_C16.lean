import Verif.Lemmas.Loader

/-!
C15-C16: the image loader.
-/
set_option autoImplicit false
set_option linter.unusedSectionVars false
namespace Emva
open Py Emva.Parser Spec Loader
variable {K : Type} [DecidableEq K] {F : Type*} [Field F] [LinearOrder F]
variable (wr : ℤ → ℤ) (fload : Str → Option (Except PyErr Img)) (path : Str) (zero : K)

theorem two_keys {V : Type*} {i : Dict K V} (hw : Dict.WF i) (z : K) (hz : z ∈ Dict.keys i) :
    2 ≤ (Dict.keys i).length ↔ ∃ p v, p ≠ z ∧ Dict.get? i p = some v := by
  constructor
  · intro h
    by_contra hc
    push Not at hc
    have all : ∀ p ∈ Dict.keys i, p = z := by
      intro p hp
      by_contra hne
      obtain ⟨v, hv⟩ := (Dict.has_iff_exists i p).1 ((Dict.has_iff i p).2 hp)
      exact hc p v hne hv
    have := List.eq_replicate_of_mem all
    unfold Dict.WF at hw
    rw [this] at hw
    have := List.nodup_replicate.1 hw
    omega
  · rintro ⟨p, v, hne, hv⟩
    have hp := Dict.mem_keys_of_get? hv
    by_contra hlt
    match hk : Dict.keys i with
    | [] => simp [hk] at hp
    | [a] => rw [hk] at hp hz; simp at hp hz; exact hne (hp.trans hz.symm)
    | a :: b :: l => rw [hk] at hlt; simp at hlt

theorem mem_kindImgs {images : Images K} {es : List K} (hes : ∀ e, e ∈ es ↔ e ∈ Dict.keys images)
    (hw : WF2 images) (img : Img) :
    img ∈ kindImgs fload path images es ↔
      ∃ e p fs f, get2 images e p = some fs ∧ f ∈ fs ∧ imageAt fload path f = some img := by
  unfold kindImgs innerImgs imagesAt
  simp only [List.mem_flatMap, List.mem_filterMap]
  constructor
  · rintro ⟨e, he, ⟨p, fs⟩, hp, f, hf, hi⟩
    obtain ⟨i, hg⟩ := (Dict.has_iff_exists _ _).1 ((Dict.has_iff _ _).2 ((hes e).1 he))
    rw [hg] at hp
    exact ⟨e, p, fs, f, by simp [get2, hg, Dict.get?_of_mem (hw.2 e i hg) hp], hf, hi⟩
  · rintro ⟨e, p, fs, f, h, hf, hi⟩
    unfold get2 at h
    obtain ⟨i, hg, hp⟩ := Option.bind_eq_some_iff.1 h
    exact ⟨e, (hes e).2 (Dict.mem_keys_of_get? hg), (p, fs), by rw [hg]; exact Dict.get?_mem hp, f,
      hf, hi⟩

theorem nodup_length_le_one {α : Type*} {l : List α} (h : l.Nodup) :
    l.length ≤ 1 ↔ ∀ a ∈ l, ∀ b ∈ l, a = b := by
  constructor
  · intro hl a ha b hb
    match l, hl with
    | [], _ => simp at ha
    | [c], _ => simp at ha hb; rw [ha, hb]
  · intro hall
    match l with
    | [] => simp
    | [c] => simp
    | a :: b :: l =>
      have := hall a (by simp) b (by simp)
      subst this
      simp at h

theorem expOK_iff {images : Images K} (hw : WF2 images) (e : K) (_ : e ∈ Dict.keys images) :
    ExpOK fload path zero images e ↔ ∃ i, Dict.get? images e = some i ∧
      (∃ fs, Dict.get? i zero = some fs) ∧ (∃ p fs, p ≠ zero ∧ Dict.get? i p = some fs) ∧
      ∀ p fs, Dict.get? i p = some fs → ∀ f ∈ fs, (imageAt fload path f).isSome := by
  unfold ExpOK
  constructor
  · rintro ⟨i, hg, hz, hl, hr⟩
    have hwi := hw.2 e i hg
    exact ⟨i, hg, (Dict.has_iff_exists _ _).1 ((Dict.has_iff _ _).2 hz), (two_keys hwi zero hz).1 hl,
      fun p fs h => hr p fs (Dict.get?_mem h)⟩
  · rintro ⟨i, hg, hz, hb, hr⟩
    have hwi := hw.2 e i hg
    have hz' := (Dict.has_iff _ _).1 ((Dict.has_iff_exists _ _).2 hz)
    exact ⟨i, hg, hz', (two_keys hwi zero hz').2 hb,
      fun p fs h => hr p fs (Dict.get?_of_mem hwi h)⟩

/-- C15: acceptance.  For every iteration order of the sets, loading succeeds exactly for the images
dictionaries and file systems that meet the documented requirements. -/
theorem C15_acceptance (ord : List K → List K) (hord : ∀ l, (ord l).Perm l)
    (images : Kind → Images K) (hw : ∀ k, WF2 (images k)) :
    (∃ r : Loaded K F, load wr fload path zero ord images = .ok r) ↔
      Loadable fload path zero images := by
  have hes : ∀ k e, e ∈ ord (Dict.keys (images k)) ↔ e ∈ Dict.keys (images k) :=
    fun k e => (hord _).mem_iff
  have hnd : ∀ k, (ord (Dict.keys (images k))).Nodup := fun k => (hord _).nodup_iff.2 (hw k).1
  have mk := fun k => mem_kindImgs fload path (hes k) (hw k)
  have isn : ∀ f, (imageAt fload path f).isSome ↔ ∃ img, fload (join1 path f) = some (.ok img) := by
    intro f
    rw [Option.isSome_iff_exists]
    exact exists_congr fun img => imageAt_some fload path
  have key : (∀ k, ∀ e ∈ ord (Dict.keys (images k)), ExpOK fload path zero (images k) e) ↔
      ((∀ k e i, Dict.get? (images k) e = some i → ∃ fs, Dict.get? i zero = some fs) ∧
      (∀ k e i, Dict.get? (images k) e = some i → ∃ p fs, p ≠ zero ∧ Dict.get? i p = some fs) ∧
      (∀ f, Named images f → ∃ img, fload (join1 path f) = some (.ok img))) := by
    constructor
    · intro h
      have h' : ∀ k e i, Dict.get? (images k) e = some i → (∃ fs, Dict.get? i zero = some fs) ∧
          (∃ p fs, p ≠ zero ∧ Dict.get? i p = some fs) ∧
          ∀ p fs, Dict.get? i p = some fs → ∀ f ∈ fs, (imageAt fload path f).isSome := by
        intro k e i hi
        have hm := Dict.mem_keys_of_get? hi
        obtain ⟨i', hi', h1⟩ := (expOK_iff fload path zero (hw k) e hm).1 (h k e ((hes k e).2 hm))
        rw [hi] at hi'
        simp at hi'
        subst hi'
        exact h1
      refine ⟨fun k e i hi => (h' k e i hi).1, fun k e i hi => (h' k e i hi).2.1, ?_⟩
      rintro f ⟨k, e, p, fs, hg, hf⟩
      obtain ⟨i, hi, hp⟩ := Option.bind_eq_some_iff.1 hg
      exact (isn f).1 ((h' k e i hi).2.2 p fs hp f hf)
    · rintro ⟨h1, h2, h3⟩ k e he
      have hm := (hes k e).1 he
      obtain ⟨i, hi⟩ := (Dict.has_iff_exists _ _).1 ((Dict.has_iff _ _).2 hm)
      refine (expOK_iff fload path zero (hw k) e hm).2 ⟨i, hi, h1 k e i hi, h2 k e i hi, ?_⟩
      intro p fs hp f hf
      exact (isn f).2 (h3 f ⟨k, e, p, fs, by simp [get2, hi, hp], hf⟩)
  have shp : ∀ t, t ∈ addShapes (addShapes [] (kindImgs fload path (images .temporal)
        (ord (Dict.keys (images .temporal))))) (kindImgs fload path (images .spatial)
        (ord (Dict.keys (images .spatial)))) ↔
      ∃ f img, Named images f ∧ imageAt fload path f = some img ∧ img.shape = t := by
    intro t
    rw [mem_addShapes, mem_addShapes]
    simp only [List.not_mem_nil, false_or, mk]
    constructor
    · rintro (⟨img, ⟨e, p, fs, f, h1, h2, h3⟩, h4⟩ | ⟨img, ⟨e, p, fs, f, h1, h2, h3⟩, h4⟩)
      · exact ⟨f, img, ⟨.temporal, e, p, fs, h1, h2⟩, h3, h4⟩
      · exact ⟨f, img, ⟨.spatial, e, p, fs, h1, h2⟩, h3, h4⟩
    · rintro ⟨f, img, ⟨k, e, p, fs, h1, h2⟩, h3, h4⟩
      cases k
      · exact .inl ⟨img, ⟨e, p, fs, f, h1, h2, h3⟩, h4⟩
      · exact .inr ⟨img, ⟨e, p, fs, f, h1, h2, h3⟩, h4⟩
  have nd : (addShapes (addShapes [] (kindImgs fload path (images .temporal)
        (ord (Dict.keys (images .temporal))))) (kindImgs fload path (images .spatial)
        (ord (Dict.keys (images .spatial))))).Nodup :=
    nodup_addShapes (nodup_addShapes (by simp) _) _
  have LT := loadExposures_ok fload path (temporalEntry F wr) zero (images .temporal)
    (ord (Dict.keys (images .temporal))) [] [] (by simp) (hnd _) (hw _).2
  constructor
  · rintro ⟨r, hr⟩
    unfold load at hr
    split at hr
    · simp at hr
    · rename_i t sh ht
      obtain ⟨t1, t2, t3, -, -⟩ := LT.1 _ ht
      simp only at t2 t3
      have LS := loadExposures_ok fload path (getIntImgs F wr) zero (images .spatial)
        (ord (Dict.keys (images .spatial))) [] sh t3 (hnd _) (hw _).2
      split at hr
      · simp at hr
      · rename_i s sh' hs
        obtain ⟨s1, s2, s3, -, -⟩ := LS.1 _ hs
        simp only at s2 s3
        have hall : ∀ k, ∀ e ∈ ord (Dict.keys (images k)), ExpOK fload path zero (images k) e := by
          intro k; cases k
          · exact t1
          · exact s1
        obtain ⟨k1, k2, k3⟩ := key.1 hall
        rw [t2] at s2
        rw [s2] at s3
        refine ⟨k1, k2, k3, ?_, ?_⟩
        · intro f g a b hf hg ha hb
          exact (nodup_length_le_one nd).1 s3 _ ((shp _).2 ⟨f, a, hf, ha, rfl⟩) _
            ((shp _).2 ⟨g, b, hg, hb, rfl⟩)
        · split at hr
          · simp at hr
          · rename_i shape tl
            have : shape ∈ shape :: tl := by simp
            rw [s2] at this
            obtain ⟨f, -, hf, -, -⟩ := (shp _).1 this
            exact ⟨f, hf⟩
  · intro h
    have hall := key.2 ⟨h.dark, h.bright, h.readable⟩
    have hlen := (nodup_length_le_one nd).2 (by
      intro a ha b hb
      obtain ⟨f, i, hf, hi, rfl⟩ := (shp a).1 ha
      obtain ⟨g, j, hg, hj, rfl⟩ := (shp b).1 hb
      exact h.shape f g i j hf hg hi hj)
    obtain ⟨⟨t, sh⟩, ht⟩ := LT.2 (hall .temporal) ((length_addShapes _ _).trans hlen)
    obtain ⟨-, t2, t3, -, -⟩ := LT.1 _ ht
    simp only at t2 t3
    have LS := loadExposures_ok fload path (getIntImgs F wr) zero (images .spatial)
      (ord (Dict.keys (images .spatial))) [] sh t3 (hnd _) (hw _).2
    obtain ⟨⟨s, sh'⟩, hs⟩ := LS.2 (hall .spatial) (by rw [t2]; exact hlen)
    obtain ⟨-, s2, s3, -, -⟩ := LS.1 _ hs
    simp only at s2 s3
    unfold load
    rw [ht]
    simp only [hs]
    obtain ⟨f, hf⟩ := h.nonempty
    obtain ⟨img, hi⟩ := h.readable f hf
    have hm : img.shape ∈ sh' := by
      rw [s2, t2]
      exact (shp _).2 ⟨f, img, hf, (imageAt_some fload path).2 hi, rfl⟩
    cases sh' with
    | nil => simp at hm
    | cons a l => exact ⟨_, rfl⟩

/-- C15: content.  A loaded data set has exactly the kinds, exposures and photon counts of the images
dictionary; each entry is the reduction of the images found at its paths, in order; height and width
are those of every image. -/
theorem C15_content (ord : List K → List K) (hord : ∀ l, (ord l).Perm l)
    (images : Kind → Images K) (hw : ∀ k, WF2 (images k)) (r : Loaded K F)
    (hr : load wr fload path zero ord images = .ok r) :
    (∀ e p, get2 r.temporal e p = (get2 (images .temporal) e p).map fun fs =>
      temporalEntry F wr (imagesAt fload path fs)) ∧
    (∀ e p, get2 r.spatial e p = (get2 (images .spatial) e p).map fun fs =>
      getIntImgs F wr (imagesAt fload path fs)) ∧
    (∀ e, e ∈ Dict.keys r.temporal ↔ e ∈ Dict.keys (images .temporal)) ∧
    (∀ e, e ∈ Dict.keys r.spatial ↔ e ∈ Dict.keys (images .spatial)) ∧
    (∀ f img, Named images f → imageAt fload path f = some img →
      img.h = r.height ∧ img.w = r.width) ∧
    WF2 r.temporal ∧ WF2 r.spatial := by
  have hL := (C15_acceptance (F := F) wr fload path zero ord hord images hw).1 ⟨r, hr⟩
  have hes : ∀ k e, e ∈ ord (Dict.keys (images k)) ↔ e ∈ Dict.keys (images k) :=
    fun k e => (hord _).mem_iff
  have hnd : ∀ k, (ord (Dict.keys (images k))).Nodup := fun k => (hord _).nodup_iff.2 (hw k).1
  have mk := fun k => mem_kindImgs fload path (hes k) (hw k)
  have full0 : ∀ V : Type _, Full ([] : Dict K (Dict K V)) := fun V => ⟨Dict.wf_nil, by simp⟩
  -- keys from lookups
  have keyOf : ∀ {V : Type _} (k : Kind) (d : Dict K (Dict K V)), Full d →
      (∀ e p, (get2 d e p).isSome ↔ (get2 (images k) e p).isSome) →
      ∀ e, e ∈ Dict.keys d ↔ e ∈ Dict.keys (images k) := by
    intro V k d hd hg e
    constructor
    · intro he
      obtain ⟨i, hi⟩ := (Dict.has_iff_exists _ _).1 ((Dict.has_iff _ _).2 he)
      obtain ⟨⟨p, v⟩, hp⟩ := List.exists_mem_of_ne_nil _ (hd.2 e i hi).2
      have hs : (get2 d e p).isSome := by
        simp [get2, hi, Dict.get?_of_mem (hd.2 e i hi).1 hp]
      have := (hg e p).1 hs
      obtain ⟨fs, hfs⟩ := Option.isSome_iff_exists.1 this
      obtain ⟨j, hj, -⟩ := Option.bind_eq_some_iff.1 hfs
      exact Dict.mem_keys_of_get? hj
    · intro he
      obtain ⟨i, hi⟩ := (Dict.has_iff_exists _ _).1 ((Dict.has_iff _ _).2 he)
      obtain ⟨fs, hfs⟩ := hL.dark k e i hi
      have hs : (get2 (images k) e zero).isSome := by simp [get2, hi, hfs]
      obtain ⟨v, hv⟩ := Option.isSome_iff_exists.1 ((hg e zero).2 hs)
      obtain ⟨j, hj, -⟩ := Option.bind_eq_some_iff.1 hv
      exact Dict.mem_keys_of_get? hj
  have look : ∀ {V : Type _} (k : Kind) (d : Dict K (Dict K V)) (red : List Img → V),
      (∀ e p, get2 d e p = if e ∈ ord (Dict.keys (images k)) ∧ (get2 (images k) e p).isSome then
        (get2 (images k) e p).map fun fs => red (imagesAt fload path fs) else get2 [] e p) →
      ∀ e p, get2 d e p = (get2 (images k) e p).map fun fs => red (imagesAt fload path fs) := by
    intro V k d red h e p
    rw [h]
    split
    · rfl
    · rename_i hn
      cases hg : get2 (images k) e p with
      | none => simp [get2]
      | some fs =>
        exfalso
        apply hn
        obtain ⟨i, hi, -⟩ := Option.bind_eq_some_iff.1 hg
        exact ⟨(hes k e).2 (Dict.mem_keys_of_get? hi), by simp [hg]⟩
  unfold load at hr
  split at hr
  · simp at hr
  · rename_i t sh ht
    obtain ⟨-, t2, t3, t4, t5⟩ := (loadExposures_ok fload path (temporalEntry F wr) zero
      (images .temporal) (ord (Dict.keys (images .temporal))) [] [] (by simp) (hnd _) (hw _).2).1 _ ht
    simp only at t2 t3 t4 t5
    split at hr
    · simp at hr
    · rename_i s sh' hs
      obtain ⟨-, s2, s3, s4, s5⟩ := (loadExposures_ok fload path (getIntImgs F wr) zero
        (images .spatial) (ord (Dict.keys (images .spatial))) [] sh t3 (hnd _) (hw _).2).1 _ hs
      simp only at s2 s3 s4 s5
      split at hr
      · simp at hr
      · rename_i shape tl
        simp only [Except.ok.injEq] at hr
        subst hr
        simp only
        have lt := look .temporal t _ t4
        have ls := look .spatial s _ s4
        refine ⟨lt, ls, ?_, ?_, ?_, ?_, ?_⟩
        · exact keyOf .temporal t (t5 (full0 _)) fun e p => by rw [lt]; simp
        · exact keyOf .spatial s (s5 (full0 _)) fun e p => by rw [ls]; simp
        · rintro f img ⟨k, e, p, fs, h1, h2⟩ h3
          have hm : img.shape ∈ shape :: tl := by
            rw [s2, t2, mem_addShapes, mem_addShapes]
            cases k
            · exact .inl (.inr ⟨img, (mk .temporal img).2 ⟨e, p, fs, f, h1, h2, h3⟩, rfl⟩)
            · exact .inr ⟨img, (mk .spatial img).2 ⟨e, p, fs, f, h1, h2, h3⟩, rfl⟩
          have htl : tl = [] := by
            cases tl with
            | nil => rfl
            | cons a l => simp at s3
          subst htl
          simp at hm
          rw [← hm]
          exact ⟨rfl, rfl⟩
        · exact ⟨(t5 (full0 _)).1, fun e i hi => ((t5 (full0 _)).2 e i hi).1⟩
        · exact ⟨(s5 (full0 _)).1, fun e i hi => ((s5 (full0 _)).2 e i hi).1⟩

/-- C15: a rejected data set is rejected with `ValueError`, `IOError`, `KeyError` (no image at all)
or the error of the image reader; nothing else. -/
theorem C15_error_classes (ord : List K → List K) (hord : ∀ l, (ord l).Perm l)
    (images : Kind → Images K) (e : PyErr)
    (hr : (load wr fload path zero ord images : Except PyErr (Loaded K F)) = .error e) :
    e = .ioError ∨ e = .valueError ∨ e = .keyError ∨ ∃ f, fload f = some (.error e) := by
  have hes : ∀ k, ∀ x ∈ ord (Dict.keys (images k)), x ∈ Dict.keys (images k) :=
    fun k x hx => (hord _).mem_iff.1 hx
  unfold load at hr
  split at hr
  · rename_i e' he
    simp at hr; subst hr
    have := loadExposures_error fload path _ zero _ _ (hes _) _ _ he
    tauto
  · split at hr
    · rename_i e' he
      simp at hr; subst hr
      have := loadExposures_error fload path _ zero _ _ (hes _) _ _ he
      tauto
    · split at hr
      · simp at hr; exact .inr (.inr (.inl hr.symm))
      · simp at hr

/-- C16: whatever the two iteration orders, both loads succeed or both fail, and if they succeed the
loaded dictionaries answer every lookup alike and the shapes agree. -/
theorem C16_order_independent (ord ord' : List K → List K) (hord : ∀ l, (ord l).Perm l)
    (hord' : ∀ l, (ord' l).Perm l) (images : Kind → Images K) (hw : ∀ k, WF2 (images k)) :
    ((∃ r : Loaded K F, load wr fload path zero ord images = .ok r) ↔
      ∃ r : Loaded K F, load wr fload path zero ord' images = .ok r) ∧
    ∀ r r' : Loaded K F, load wr fload path zero ord images = .ok r →
      load wr fload path zero ord' images = .ok r' →
      (∀ e p, get2 r.temporal e p = get2 r'.temporal e p) ∧
      (∀ e p, get2 r.spatial e p = get2 r'.spatial e p) ∧
      (∀ e, e ∈ Dict.keys r.temporal ↔ e ∈ Dict.keys r'.temporal) ∧
      (∀ e, e ∈ Dict.keys r.spatial ↔ e ∈ Dict.keys r'.spatial) ∧
      r.height = r'.height ∧ r.width = r'.width := by
  constructor
  · rw [C15_acceptance wr fload path zero ord hord images hw,
      C15_acceptance wr fload path zero ord' hord' images hw]
  · intro r r' hr hr'
    have hL := (C15_acceptance (F := F) wr fload path zero ord hord images hw).1 ⟨r, hr⟩
    obtain ⟨a1, a2, a3, a4, a5, -⟩ := C15_content wr fload path zero ord hord images hw r hr
    obtain ⟨b1, b2, b3, b4, b5, -⟩ := C15_content wr fload path zero ord' hord' images hw r' hr'
    obtain ⟨f, hf⟩ := hL.nonempty
    obtain ⟨img, hi⟩ := hL.readable f hf
    have hi' := (imageAt_some fload path).2 hi
    have h1 := a5 f img hf hi'
    have h2 := b5 f img hf hi'
    exact ⟨fun e p => by rw [a1, b1], fun e p => by rw [a2, b2], fun e => by rw [a3, b3],
      fun e => by rw [a4, b4], h1.1.symm.trans h2.1, h1.2.symm.trans h2.2⟩

/-- A small file system: 1 x 2 images. -/
def sampleFs : Str → Option (Except PyErr Img)
  | ['a'] => some (.ok ⟨1, 2, fun _ j => j⟩)
  | ['b'] => some (.ok ⟨1, 2, fun _ j => 2 * j⟩)
  | ['x'] => some (.ok ⟨2, 1, fun i _ => i⟩)
  | _ => none

/-- one exposure, a dark and a bright pair -/
def sampleImages (third : Str) : Kind → Images ℚ
  | .temporal => [(5, [(0, [['a'], ['b']]), (7, [['b'], third])])]
  | .spatial => []

/-- the sample loads; a missing file, a different shape and a missing dark do not -/
example :
    raised (load i64 sampleFs [] 0 id (sampleImages ['a']) : Except PyErr (Loaded ℚ ℚ)) = none ∧
    raised (load i64 sampleFs [] 0 id (sampleImages ['q']) : Except PyErr (Loaded ℚ ℚ)) =
      some .ioError ∧
    raised (load i64 sampleFs [] 0 id (sampleImages ['x']) : Except PyErr (Loaded ℚ ℚ)) =
      some .valueError ∧
    raised (load i64 sampleFs [] 1 id (sampleImages ['a']) : Except PyErr (Loaded ℚ ℚ)) =
      some .valueError := by
  decide +kernel

example : ∀ k, WF2 (sampleImages ['a'] k) := by
  intro k
  cases k
  · refine ⟨by unfold Dict.WF; decide +kernel, ?_⟩
    intro e i h
    simp only [sampleImages, Dict.get?] at h
    split at h
    · simp at h; subst h; unfold Dict.WF; decide +kernel
    · simp at h
  · exact ⟨Dict.wf_nil, by simp [sampleImages]⟩

end Emva
