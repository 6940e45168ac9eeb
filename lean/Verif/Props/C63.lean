import Verif.Model.Pipeline
import Verif.Props.C17_Values
import Verif.Props.C13_C14
import Verif.Props.C56

/-!
C63: the whole chain.  A generated dataset is always processable.
-/
set_option autoImplicit false
set_option linter.unusedSectionVars false
namespace Emva
open Py Loader Spec Data Emva.Parser Gen Pipeline
section
variable {F : Type} [Field F] [LinearOrder F] [IsStrictOrderedRing F]

theorem length_imagesAt (fload : Str → Option (Except PyErr Img)) (path : Str) (fs : List Str)
    (h : ∀ f ∈ fs, ∃ img, fload (join1 path f) = some (.ok img)) : (imagesAt fload path fs).length = fs.length := by
  unfold imagesAt
  induction fs with
  | nil => rfl
  | cons f fs ih =>
    obtain ⟨img, hi⟩ := h f (by simp)
    have : imageAt fload path f = some img := by simp [imageAt, hi]
    rw [List.filterMap_cons_some this, List.length_cons, List.length_cons, ih fun g hg => h g (by simp [hg])]

theorem loaded_facts (wr : ℤ → ℤ) (fload : Str → Option (Except PyErr Img)) (path : Str)
    (ord : List F → List F) (hord : ∀ l, (ord l).Perm l) (images : Kind → Images F) (hw : ∀ k, WF2 (images k))
    (hpos : ∀ f img, Named images f → imageAt fload path f = some img → 0 < img.h ∧ 0 < img.w)
    (hne : ∀ e p fs, get2 (images .spatial) e p = some fs → fs ≠ []) (imgs : Loaded F F)
    (hl : load wr fload path 0 ord images = .ok imgs) :
    0 < imgs.height ∧ 0 < imgs.width ∧ (∀ e p v, get2 imgs.spatial e p = some v → 1 ≤ v.L) ∧
    (∀ e, Dict.keys imgs.spatial = [e] ↔ Dict.keys (images .spatial) = [e]) ∧
    ∀ e p dk br, OnePair (images .spatial) e p dk br →
      OnePair imgs.spatial e p (getIntImgs F wr (imagesAt fload path dk)) (getIntImgs F wr (imagesAt fload path br)) := by
  have hLo := (C15_acceptance (F := F) wr fload path 0 ord hord images hw).1 ⟨imgs, hl⟩
  obtain ⟨c1, c2, c3, c4, c5, c6, c7⟩ := C15_content wr fload path 0 ord hord images hw imgs hl
  obtain ⟨f0, hf0⟩ := hLo.nonempty
  obtain ⟨i0, hi0⟩ := hLo.readable f0 hf0
  have hi0' : imageAt fload path f0 = some i0 := by simp [imageAt, hi0]
  have hsz := hpos f0 i0 hf0 hi0'
  have hsh := c5 f0 i0 hf0 hi0'
  rw [hsh.1, hsh.2] at hsz
  have hkeys : ∀ e, Dict.keys imgs.spatial = [e] ↔ Dict.keys (images .spatial) = [e] := by
    intro e
    have hperm : (Dict.keys imgs.spatial).Perm (Dict.keys (images .spatial)) :=
      (List.perm_ext_iff_of_nodup c7.1 (hw .spatial).1).2 fun x => c4 x
    constructor
    · intro h; rw [h] at hperm; exact List.perm_singleton.1 hperm.symm
    · intro h; rw [h] at hperm; exact List.perm_singleton.1 hperm
  refine ⟨hsz.1, hsz.2, ?_, hkeys, ?_⟩
  · intro e p v hv
    rw [c2] at hv
    obtain ⟨fs, hfs, rfl⟩ := Option.map_eq_some_iff.1 hv
    show 1 ≤ (imagesAt fload path fs).length
    rw [length_imagesAt]
    · exact List.length_pos_iff.2 (hne e p fs hfs)
    · exact fun f hf => hLo.readable f ⟨.spatial, e, p, fs, hfs, hf⟩
  · rintro e p dk br ⟨h0, hk, hg⟩
    refine ⟨h0, (hkeys e).2 hk, fun p' v => ?_⟩
    rw [c2, Option.map_eq_some_iff]
    constructor
    · rintro ⟨fs, hfs, rfl⟩
      rcases (hg p' fs).1 hfs with ⟨rfl, rfl⟩ | ⟨rfl, rfl⟩
      · exact .inl ⟨rfl, rfl⟩
      · exact .inr ⟨rfl, rfl⟩
    · rintro (⟨rfl, rfl⟩ | ⟨rfl, rfl⟩)
      · exact ⟨dk, (hg _ _).2 (.inl ⟨rfl, rfl⟩), rfl⟩
      · exact ⟨br, (hg _ _).2 (.inr ⟨rfl, rfl⟩), rfl⟩

/-- C63: an images dictionary (as python builds them; images not empty, no empty spatial series) is evaluated
without an error exactly when it can be loaded and its spatial part is one dark and one bright series. -/
theorem C63_evaluable (wr : ℤ → ℤ) (fload : Str → Option (Except PyErr Img)) (path : Str)
    (ord : List F → List F) (hord : ∀ l, (ord l).Perm l) (images : Kind → Images F) (hw : ∀ k, WF2 (images k))
    (hpos : ∀ f img, Named images f → imageAt fload path f = some img → 0 < img.h ∧ 0 < img.w)
    (hne : ∀ e p fs, get2 (images .spatial) e p = some fs → fs ≠ [])
    (pixels : Option ℕ) (pixel_area : Option F) (index_u_ysat : Option ℤ) :
    (∃ r, evaluate wr fload path ord images pixels pixel_area index_u_ysat = .ok r) ↔
      Loadable fload path 0 images ∧ ∃ e p dk br, OnePair (images .spatial) e p dk br := by
  have hacc := C15_acceptance (F := F) wr fload path 0 ord hord images hw
  unfold evaluate
  cases hl : (load wr fload path 0 ord images : Except PyErr (Loaded F F)) with
  | error e =>
    constructor
    · rintro ⟨r, hr⟩
      cases hr
    · rintro ⟨h, -⟩
      obtain ⟨r, hr⟩ := hacc.2 h
      rw [hl] at hr
      cases hr
  | ok imgs =>
    have hLo := hacc.1 ⟨imgs, hl⟩
    obtain ⟨c1, c2, c3, c4, c5, c6, c7⟩ := C15_content wr fload path 0 ord hord images hw imgs hl
    obtain ⟨hh, hwd, hLen, hkeys, hOne⟩ := loaded_facts wr fload path ord hord images hw hpos hne imgs hl
    have hcon := (C19_constructor imgs pixels hh hwd c6 c7 hLen).1
    have hP : Paired imgs.temporal := by
      intro e i hi
      have hk := (c3 e).1 (Dict.mem_keys_of_get? hi)
      obtain ⟨j, hj⟩ := (Dict.has_iff_exists _ _).1 ((Dict.has_iff _ _).2 hk)
      have hg : ∀ p, Dict.get? i p = (Dict.get? j p).map fun fs => temporalEntry F wr (imagesAt fload path fs) := by
        intro p
        have := c1 e p
        simpa [get2, hi, hj] using this
      obtain ⟨fs, hfs⟩ := hLo.dark .temporal e j hj
      obtain ⟨p, fs', hp0, hfs'⟩ := hLo.bright .temporal e j hj
      exact ⟨⟨_, by rw [hg, hfs]; rfl⟩, p, _, hp0, by rw [hg, hfs']; rfl⟩
    have hO : (∃ e p dk br, OnePair imgs.spatial e p dk br) ↔ ∃ e p dk br, OnePair (images .spatial) e p dk br := by
      constructor
      · rintro ⟨e, p, dk, br, h0, hk, hg⟩
        have hz := (hg 0 dk).2 (.inl ⟨rfl, rfl⟩)
        have hb := (hg p br).2 (.inr ⟨rfl, rfl⟩)
        rw [c2] at hz hb
        obtain ⟨dk', hdk, -⟩ := Option.map_eq_some_iff.1 hz
        obtain ⟨br', hbr, -⟩ := Option.map_eq_some_iff.1 hb
        refine ⟨e, p, dk', br', h0, (hkeys e).1 hk, fun p' v => ⟨fun hv => ?_, ?_⟩⟩
        · have : get2 imgs.spatial e p' = some (getIntImgs F wr (imagesAt fload path v)) := by rw [c2, hv]; rfl
          rcases (hg p' _).1 this with ⟨rfl, -⟩ | ⟨rfl, -⟩
          · exact .inl ⟨rfl, Option.some.inj (hv.symm.trans hdk)⟩
          · exact .inr ⟨rfl, Option.some.inj (hv.symm.trans hbr)⟩
        · rintro (⟨rfl, rfl⟩ | ⟨rfl, rfl⟩) <;> assumption
      · rintro ⟨e, p, dk, br, h⟩
        exact ⟨e, p, _, _, hOne e p dk br h⟩
    simp only [bind, Except.bind]
    constructor
    · rintro ⟨r, hr⟩
      refine ⟨hLo, ?_⟩
      cases hm : Data.make imgs pixels with
      | error e => rw [hm] at hr; cases hr
      | ok d => exact hO.1 (hcon.1 ⟨d, hm⟩).2
    · rintro ⟨-, h⟩
      obtain ⟨d, hd⟩ := hcon.2 ⟨hP, hO.2 h⟩
      exact ⟨_, by rw [hd]; rfl⟩

end

/-! ### generated datasets -/

/-- the keys (rounded exposure and photon count) of the bright points, in acquisition order -/
def brightKeys (pts : Points) : List (ℚ × ℚ) := ((flat pts).filter fun q => q.2.isSome).map fun q => key q.1 q.2

/-- every exposure has a dark and a bright point -/
def PairedPoints (pts : Points) : Prop := ∀ t ∈ pts, none ∈ t.2 ∧ ∃ p, some p ∈ t.2

/-- the points of a kind -/
def ptsOf (temporal spatial : Points) : Kind → Points
  | .temporal => temporal
  | .spatial => spatial

/-- the number of images of a point of a kind -/
def cntOf (L : ℕ) : Kind → ℕ
  | .temporal => 2
  | .spatial => L

theorem mem_flat {pts : Points} {e : ℚ} {r : Option ℚ} : (e, r) ∈ flat pts ↔ ∃ l, (e, l) ∈ pts ∧ r ∈ l := by
  simp only [flat, List.mem_flatMap, List.mem_map, Prod.mk.injEq]
  constructor
  · rintro ⟨t, ht, x, hx, rfl, rfl⟩
    exact ⟨t.2, ht, hx⟩
  · rintro ⟨l, hl, hr⟩
    exact ⟨(e, l), hl, r, hr, rfl, rfl⟩

theorem key_inj {pts : Points} (h : KeysDistinct pts) {q q' : ℚ × Option ℚ} (hq : q ∈ flat pts) (hq' : q' ∈ flat pts)
    (he : key q.1 q.2 = key q'.1 q'.2) : q = q' := List.inj_on_of_nodup_map h hq hq' he

/-- a bright point is not stored under photon count 0 -/
theorem bright_key_ne {pts : Points} (h : KeysDistinct pts) (hp : PairedPoints pts) {e p : ℚ} (hq : (e, some p) ∈ flat pts) :
    (key e (some p)).2 ≠ 0 := by
  intro h0
  obtain ⟨l, hl, hm⟩ := mem_flat.1 hq
  have hd : (e, none) ∈ flat pts := mem_flat.2 ⟨l, hl, (hp _ hl).1⟩
  have := key_inj h hq hd (Prod.ext rfl h0)
  simp at this

theorem numbered_unique {c : Cfg} {temporal spatial : Points} {s s' : ℚ × Option ℚ × List ℕ}
    (ht : KeysDistinct temporal) (hs : KeysDistinct spatial) (hL : 3 ≤ c.L)
    (h : s ∈ numbered 0 (plan c.L temporal spatial)) (h' : s' ∈ numbered 0 (plan c.L temporal spatial))
    (hk : key s.1 s.2.1 = key s'.1 s'.2.1) (hl : s.2.2.length = s'.2.2.length) : s.1 = s'.1 ∧ s.2.1 = s'.2.1 := by
  have e1 := mem_plan.1 (mem_numbered h)
  have e2 := mem_plan.1 (mem_numbered h')
  simp only at e1 e2
  rcases e1 with ⟨a1, a2⟩ | ⟨a1, a2⟩ <;> rcases e2 with ⟨b1, b2⟩ | ⟨b1, b2⟩
  · have := key_inj ht a1 b1 hk
    simpa using this
  · omega
  · omega
  · have := key_inj hs a1 b1 hk
    simpa using this

/-- C63: a dataset written by the generator is always processable.  For all settings, all temporal points
with a dark and a bright point for each exposure, one spatial bright point with its dark, `L ≥ 3` and no two
points of a kind with the same rounded key: whatever the grabbed images contain (they have the shape of
the sensor), whatever integer type is used, `Emva1288(descriptor)` raises no error.  The photon counts of the
temporal data are those of the bright operation points, one entry each, by exposure and then photon count;
there are as many means and variances; the spatial point is the given one. -/
theorem C63_generated_dataset (c : Cfg) (temporal spatial : Points) (h : GenOK c temporal spatial)
    (hL : 3 ≤ c.L) (ht : KeysDistinct temporal) (hs : KeysDistinct spatial)
    (hp : PairedPoints temporal) (e p : ℚ) (hsp : spatial = [(e, [some p, none])])
    (hw : 0 < c.width) (hh : 0 < c.height)
    (fload : Str → Option (Except PyErr Img))
    (hf : ∀ f ∈ (runTest c temporal spatial).saved, ∃ img, fload f = some (.ok img) ∧ img.h = c.height ∧ img.w = c.width)
    (wr : ℤ → ℤ) (ord : List ℚ → List ℚ) (hord : ∀ l, (ord l).Perm l) :
    ∃ r, emva1288 wr decFloat decInt fload ord (descriptorPath c) (runTest c temporal spatial).text = .ok r ∧
      (∃ ks : List (ℚ × ℚ), ks.Perm (brightKeys temporal) ∧
        ks.Pairwise (fun a b => a.1 < b.1 ∨ (a.1 = b.1 ∧ a.2 < b.2)) ∧ r.temporal.u_p = ks.map (·.2)) ∧
      r.temporal.u_y.length = (brightKeys temporal).length ∧
      r.temporal.s2_y.length = (brightKeys temporal).length ∧
      r.spatial.texp = (key e none).1 ∧ r.spatial.u_p = (key e (some p)).2 := by
  obtain ⟨d, hd, -, -, hlk'⟩ := C13_round_trip c temporal spatial h hL ht hs
  have hlk : ∀ k e p fs, d.lookup k e p = some fs ↔
        ∃ s ∈ numbered 0 (plan c.L temporal spatial), key s.1 s.2.1 = (e, p) ∧
          s.2.2.length = cntOf c.L k ∧ fs = s.2.2.map (fileOf c) := by
    intro k; cases k
    · exact hlk' .temporal
    · exact hlk' .spatial
  obtain ⟨hfiles, -⟩ := C14_parsed_files c temporal spatial h hL ht hs d hd
  have hps : PairedPoints spatial := by
    subst hsp
    intro t ht
    rw [List.mem_singleton.1 ht]
    exact ⟨by simp, p, by simp⟩
  have hwf : ∀ k, WF2 (d.images k) := by
    obtain ⟨ss, -, -, hm⟩ := C07_sound _ _ _ _ _ _ _ hd
    exact hm.wf
  have hg2 : ∀ k e p, get2 (d.images k) e p = d.lookup k e p := fun _ _ _ => rfl
  have hnum : ∀ (k : Kind) e0 r0, (e0, r0) ∈ flat (ptsOf temporal spatial k) →
      ∃ fs, d.lookup k (key e0 r0).1 (key e0 r0).2 = some fs ∧ fs ≠ [] := by
    intro k e0 r0 hm
    have hpl : (e0, r0, cntOf c.L k) ∈ plan c.L temporal spatial := by
      cases k
      · exact mem_plan.2 (.inl ⟨hm, rfl⟩)
      · exact mem_plan.2 (.inr ⟨hm, rfl⟩)
    obtain ⟨is, hmem, hlen⟩ := numbered_of_mem (n := 0) hpl
    refine ⟨is.map (fileOf c), (hlk _ _ _ _).2 ⟨_, hmem, rfl, hlen, rfl⟩, ?_⟩
    intro h0
    have : is = [] := List.map_eq_nil_iff.1 h0
    rw [this] at hlen
    cases k <;> simp [cntOf] at hlen
    omega
  -- what the dictionary contains
  have hback : ∀ (k : Kind) e0 p0 fs, d.lookup k e0 p0 = some fs →
      ∃ q ∈ flat (ptsOf temporal spatial k), key q.1 q.2 = (e0, p0) := by
    intro k e0 p0 fs hx
    obtain ⟨s, hs1, hk, hlen, -⟩ := (hlk _ _ _ _).1 hx
    rcases mem_plan.1 (mem_numbered hs1) with ⟨a1, a2⟩ | ⟨a1, a2⟩
    · cases k
      · exact ⟨_, a1, hk⟩
      · simp only [cntOf] at a2 hlen; omega
    · cases k
      · simp only [cntOf] at a2 hlen; omega
      · exact ⟨_, a1, hk⟩
  have hpair : ∀ k, PairedPoints (ptsOf temporal spatial k) := by
    intro k; cases k <;> assumption
  have hdist : ∀ k, KeysDistinct (ptsOf temporal spatial k) := by
    intro k; cases k <;> assumption
  have hjoin : ∀ f, join1 [] f = f := by
    intro f
    unfold join1
    split <;> simp
  have hsaved : ∀ f, Named d.images f → f ∈ (runTest c temporal spatial).saved := by
    rintro f ⟨k, e0, p0, fs, hx, hm⟩
    exact (hfiles f).2 ⟨k, e0, p0, fs, hx, hm⟩
  have hcolumn : ∀ k e0 i, Dict.get? (d.images k) e0 = some i →
      ∃ t ∈ (ptsOf temporal spatial k), ∀ r0 ∈ t.2, ∃ fs,
        Dict.get? i (key t.1 r0).2 = some fs := by
    intro k e0 i hi
    have hke : e0 ∈ Dict.keys (d.images k) := Dict.mem_keys_of_get? hi
    obtain ⟨ss, -, -, hm⟩ := C07_sound _ _ _ _ _ _ _ hd
    obtain ⟨p0, names, hser, hkn⟩ := (hm.keys k e0).1 hke
    have hx := (hm.lookup k e0 p0 _).2 ⟨names, hser, hkn, rfl⟩
    obtain ⟨⟨e1, r1⟩, hq, hqk⟩ := hback k e0 p0 _ hx
    obtain ⟨l, hl, -⟩ := mem_flat.1 hq
    refine ⟨(e1, l), hl, fun r0 hr0 => ?_⟩
    obtain ⟨fs, hfs, -⟩ := hnum k e1 r0 (mem_flat.2 ⟨l, hl, hr0⟩)
    have he1 : (key e1 r0).1 = e0 := by
      have : (key e1 r0).1 = (key e1 r1).1 := rfl
      rw [this, hqk]
    rw [he1] at hfs
    refine ⟨fs, ?_⟩
    simpa [Desc.lookup, hi] using hfs
  have hLo : Loadable fload [] 0 d.images := by
    refine ⟨?_, ?_, ?_, ?_, ?_⟩
    · intro k e0 i hi
      obtain ⟨t, htm, htr⟩ := hcolumn k e0 i hi
      exact htr none ((hpair k) t htm).1
    · intro k e0 i hi
      obtain ⟨t, htm, htr⟩ := hcolumn k e0 i hi
      obtain ⟨p0, hp0⟩ := ((hpair k) t htm).2
      obtain ⟨fs, hfs⟩ := htr (some p0) hp0
      exact ⟨_, fs, bright_key_ne (hdist k) (hpair k) (mem_flat.2 ⟨t.2, htm, hp0⟩), hfs⟩
    · intro f hn
      obtain ⟨img, hi, -⟩ := hf f (hsaved f hn)
      exact ⟨img, by rw [hjoin, hi]⟩
    · intro f g a b hn hn' ha hb
      obtain ⟨img, hi, hi1, hi2⟩ := hf f (hsaved f hn)
      obtain ⟨img', hi', hi1', hi2'⟩ := hf g (hsaved g hn')
      simp only [imageAt, hjoin, hi, hi', Option.some.injEq] at ha hb
      subst ha hb
      simp [Img.shape, hi1, hi2, hi1', hi2']
    · obtain ⟨fs, hfs, hne⟩ := hnum .spatial e none (by subst hsp; simp [flat, ptsOf])
      obtain ⟨f, hf'⟩ := List.exists_mem_of_ne_nil _ hne
      exact ⟨f, .spatial, _, _, fs, hfs, hf'⟩
  obtain ⟨dk, hdk, -⟩ := hnum .spatial e none (by subst hsp; simp [flat, ptsOf])
  obtain ⟨br, hbr, -⟩ := hnum .spatial e (some p) (by subst hsp; simp [flat, ptsOf])
  have hp0 : (key e (some p)).2 ≠ 0 := bright_key_ne hs hps (by subst hsp; simp [flat])
  have hkey0 : (key e none).2 = 0 := rfl
  have hke : (key e (some p)).1 = (key e none).1 := rfl
  have hall : ∀ e0 p0 fs, d.lookup .spatial e0 p0 = some fs → e0 = (key e none).1 ∧
      (p0 = 0 ∨ p0 = (key e (some p)).2) := by
    intro e0 p0 fs hx
    obtain ⟨⟨e1, r1⟩, hq, hqk⟩ := hback .spatial e0 p0 fs hx
    subst hsp
    simp only [flat, ptsOf, List.flatMap_cons, List.map_cons, List.map_nil, List.flatMap_nil, List.append_nil,
      List.mem_cons, Prod.mk.injEq, List.not_mem_nil, or_false] at hq
    rcases hq with ⟨rfl, rfl⟩ | ⟨rfl, rfl⟩
    · rw [Prod.ext_iff] at hqk
      exact ⟨hqk.1.symm, .inr hqk.2.symm⟩
    · rw [Prod.ext_iff] at hqk
      exact ⟨hqk.1.symm, .inl hqk.2.symm⟩
  have hO : OnePair (d.images .spatial) (key e none).1 (key e (some p)).2 dk br := by
    refine ⟨hp0, ?_, fun p0 v => ?_⟩
    · have hmem : ∀ x, x ∈ Dict.keys (d.images .spatial) ↔ x = (key e none).1 := by
        intro x
        constructor
        · intro hx
          obtain ⟨i, hi⟩ := (Dict.has_iff_exists _ _).1 ((Dict.has_iff _ _).2 hx)
          obtain ⟨fs, hfs⟩ := hLo.dark .spatial x i hi
          exact (hall x 0 fs (by simp [Desc.lookup, hi, hfs])).1
        · rintro rfl
          unfold Desc.lookup at hdk
          rw [Option.bind_eq_some_iff] at hdk
          obtain ⟨i, hi, -⟩ := hdk
          exact Dict.mem_keys_of_get? hi
      have hperm : (Dict.keys (d.images .spatial)).Perm [(key e none).1] :=
        (List.perm_ext_iff_of_nodup (hwf .spatial).1 (by simp)).2 fun x => by simp [hmem]
      exact List.perm_singleton.1 hperm
    · rw [hg2]
      constructor
      · intro hx
        rcases (hall _ p0 v hx).2 with rfl | rfl
        · exact .inl ⟨rfl, Option.some.inj (hx.symm.trans hdk)⟩
        · exact .inr ⟨rfl, Option.some.inj (hx.symm.trans (hke ▸ hbr))⟩
      · rintro (⟨rfl, rfl⟩ | ⟨rfl, rfl⟩)
        · exact hdk
        · exact hke ▸ hbr
  have hpos : ∀ f img, Named d.images f → imageAt fload [] f = some img → 0 < img.h ∧ 0 < img.w := by
    intro f img hn hi
    obtain ⟨img', hi', h1, h2⟩ := hf f (hsaved f hn)
    simp only [imageAt, hjoin, hi', Option.some.injEq] at hi
    subst hi
    omega
  have hneS : ∀ e0 p0 fs, get2 (d.images .spatial) e0 p0 = some fs → fs ≠ [] := by
    intro e0 p0 fs hx
    obtain ⟨s, -, -, hlen, rfl⟩ := (hlk _ _ _ _).1 hx
    intro h0
    have : s.2.2 = [] := List.map_eq_nil_iff.1 h0
    rw [this] at hlen
    simp [cntOf] at hlen
    omega
  obtain ⟨r, hr⟩ := (C63_evaluable wr fload [] ord hord d.images hwf hpos hneS none none none).2 ⟨hLo, _, _, _, _, hO⟩
  have hnn : ∀ (k : Kind) q, q ∈ flat (ptsOf temporal spatial k) → 0 ≤ (key q.1 q.2).2 := by
    intro k q hq
    have hn := h.nonneg q (by
      cases k
      · exact List.mem_append_left _ hq
      · exact List.mem_append_right _ hq)
    cases hq2 : q.2 with
    | none => exact le_rfl
    | some x => exact roundTo_nonneg 3 (hn.2 x hq2)
  refine ⟨r, by unfold emva1288; simp only [bind, Except.bind, hd]; exact hr, ?_⟩
  unfold evaluate at hr
  cases hl : (load wr fload [] 0 ord d.images : Except PyErr (Loaded ℚ ℚ)) with
  | error e => rw [hl] at hr; cases hr
  | ok imgs =>
    rw [hl] at hr
    obtain ⟨c1, c2, c3, c4, c5, c6, c7⟩ := C15_content wr fload [] 0 ord hord d.images hwf imgs hl
    cases hm : Data.make imgs none with
    | error e => simp only [bind, Except.bind, hm] at hr; cases hr
    | ok dat =>
      simp only [bind, Except.bind, hm] at hr
      cases hr
      show (∃ ks : List (ℚ × ℚ), ks.Perm (brightKeys temporal) ∧ ks.Pairwise _ ∧ dat.temporal.u_p = ks.map (·.2)) ∧
        dat.temporal.u_y.length = _ ∧ dat.temporal.s2_y.length = _ ∧ dat.spatial.texp = _ ∧ dat.spatial.u_p = _
      unfold Data.make at hm
      dsimp only at hm
      split at hm
      · simp at hm
      rename_i tt htt
      split at hm
      · simp at hm
      rename_i ss hss
      simp only [Except.ok.injEq] at hm
      subst hm
      have hn' : NonNegPhotons imgs.temporal := by
        intro e0 p0 v hv
        rw [c1] at hv
        obtain ⟨fs, hfs, -⟩ := Option.map_eq_some_iff.1 hv
        obtain ⟨q, hq, hk⟩ := hback .temporal e0 p0 fs hfs
        have := hnn .temporal q hq
        rw [hk] at this
        exact this
      obtain ⟨pts, hB, u1, u2, u3⟩ := C17_sorted_aligned _ imgs.temporal c6 hn' tt htt
      have hperm : (pts.map fun x => (x.1, x.2.1)).Perm (brightKeys temporal) := by
        refine (List.perm_ext_iff_of_nodup ?_ ?_).2 fun x => ?_
        · rw [List.nodup_iff_pairwise_ne, List.pairwise_map]
          refine hB.sorted.imp ?_
          intro a b hab hc
          simp only [Prod.mk.injEq] at hc
          rcases hab with hab | hab
          · exact absurd hc.1 hab.ne
          · exact absurd hc.2 hab.2.ne
        · unfold brightKeys
          exact List.Nodup.sublist (List.Sublist.map _ List.filter_sublist) ht
        · obtain ⟨e0, p0⟩ := x
          simp only [List.mem_map, Prod.mk.injEq, brightKeys, List.mem_filter]
          constructor
          · rintro ⟨⟨e1, p1, v⟩, hx, rfl, rfl⟩
            obtain ⟨hp1, hx⟩ := (hB.mem _ _ _).1 hx
            rw [c1] at hx
            obtain ⟨fs, hfs, -⟩ := Option.map_eq_some_iff.1 hx
            obtain ⟨q, hq, hk⟩ := hback .temporal e1 p1 fs hfs
            refine ⟨q, ⟨hq, ?_⟩, hk⟩
            cases hq2 : q.2 with
            | none => rw [hq2] at hk; exact absurd (congrArg Prod.snd hk).symm hp1
            | some x => rfl
          · rintro ⟨⟨e1, r1⟩, ⟨hq, hs1⟩, hk⟩
            obtain ⟨p1, rfl⟩ := Option.isSome_iff_exists.1 hs1
            obtain ⟨fs, hfs, -⟩ := hnum .temporal e1 (some p1) hq
            have h0 := bright_key_ne ht hp hq
            simp only at hk
            rw [hk] at hfs h0
            refine ⟨(e0, p0, temporalEntry ℚ wr (imagesAt fload [] fs)), (hB.mem _ _ _).2 ⟨h0, ?_⟩, rfl, rfl⟩
            rw [c1, hg2, hfs]; rfl
      refine ⟨⟨_, hperm, ?_, ?_⟩, ?_, ?_, ?_⟩
      · rw [List.pairwise_map]; exact hB.sorted
      · rw [u1]; simp
      · rw [← hperm.length_eq, u2]; simp
      · rw [← hperm.length_eq, u3]; simp
      · have hpp : 0 < (key e (some p)).2 :=
          lt_of_le_of_ne (hnn .spatial (e, some p) (by subst hsp; simp [flat, ptsOf])) hp0.symm
        obtain ⟨f1, f2, f3, -, f5⟩ := loaded_facts wr fload [] ord hord d.images hwf hpos hneS imgs hl
        obtain ⟨s, sd, sb, g1, g2, -, -, -, g6, -⟩ := (C19_validation imgs.height imgs.width f1 f2 imgs.spatial c7 f3).1
          _ _ _ _ (f5 _ _ _ _ hO)
        obtain rfl : s = ss := Except.ok.inj (g1.symm.trans hss)
        exact ⟨g2, (g6 hpp).1⟩

/-! ### exposure time variations -/

/-- The points of `PointsGenerator` as the generator sees them: `φ t` photons for the bright radiance at the exposure
time `t`, none for the dark one. -/
def seen (φ : ℚ → ℚ) (d : Dict ℚ (List Bool)) : Points :=
  d.map fun e => (e.1, e.2.map fun b => if b then some (φ e.1) else none)

theorem roundTo_round1 (x : ℚ) : roundTo 1 (Cam.round1 x) = Cam.round1 x := by
  unfold roundTo Cam.round1
  rw [pow_one, div_mul_cancel₀ _ (by norm_num), rint_int]

theorem keysDistinct_seen (φ : ℚ → ℚ) (d : Dict ℚ (List Bool)) (hw : Dict.WF d)
    (hd : ∀ e ∈ d, e.2 = [true, false] ∧ roundTo 1 e.1 = e.1 ∧ roundTo 3 (φ e.1) ≠ 0) : KeysDistinct (seen φ d) := by
  induction d with
  | nil => simp [KeysDistinct, seen, flat]
  | cons x d ih =>
    obtain ⟨t, l⟩ := x
    obtain ⟨rfl, h1, h3⟩ := hd (t, l) (by simp)
    simp only at h1 h3
    simp only [Dict.WF, Dict.keys, List.map_cons, List.nodup_cons] at hw
    have ih' := ih hw.2 fun e he => hd e (by simp [he])
    unfold KeysDistinct at ih' ⊢
    have hf : flat (seen φ ((t, [true, false]) :: d)) = (t, some (φ t)) :: (t, none) :: flat (seen φ d) := by
      simp [flat, seen]
    rw [hf, List.map_cons, List.map_cons, List.nodup_cons, List.nodup_cons]
    have hout : ∀ r, key t r ∉ (flat (seen φ d)).map fun q => key q.1 q.2 := by
      intro r hr
      obtain ⟨⟨t', r'⟩, hm, hk⟩ := List.mem_map.1 hr
      obtain ⟨l', hl', -⟩ := mem_flat.1 hm
      obtain ⟨e, he, he'⟩ := List.mem_map.1 hl'
      simp only [Prod.mk.injEq] at he'
      have h2 := (hd e (by simp [he])).2.1
      have : roundTo 1 t' = roundTo 1 t := congrArg Prod.fst hk
      rw [← he'.1, h2, h1] at this
      exact hw.1 (List.mem_map.2 ⟨e, he, this⟩)
    refine ⟨?_, hout none, ih'⟩
    rw [List.mem_cons, not_or]
    exact ⟨fun h => h3 (congrArg Prod.snd h), hout (some (φ t))⟩

/-- C63 for the points of an exposure time variation as `PointsGenerator` makes them: for all exposure limits, number of
steps and photon counts (none rounding to zero at three decimals), whatever the images contain, the generated
dataset is processed without an error, and there is one temporal entry per exposure. -/
theorem C63_exposure_variation (c : Cfg) (emin emax : ℚ) (steps : ℕ) (φ : ℚ → ℚ) (hs : 1 ≤ steps)
    (he : 0 ≤ emin) (hle : emin ≤ emax)
    (hv : c.version ≠ [] ∧ ∀ x ∈ c.version, isSpace x = false)
    (hext : ∀ x ∈ c.imageFormat, isSpace x = false ∧ x ≠ '/' ∧ x ≠ '\\')
    (hout : c.outdir = [] ∨ endsWithChar c.outdir '/' = false ∨
      ∃ u, c.outdir = u ++ ['/'] ∧ u ≠ [] ∧ endsWithChar u '/' = false)
    (hL : 3 ≤ c.L) (hw : 0 < c.width) (hh : 0 < c.height)
    (fload : Str → Option (Except PyErr Img)) (wr : ℤ → ℤ) (ord : List ℚ → List ℚ) (hord : ∀ l, (ord l).Perm l) :
    let p := Cam.exposurePoints emin emax steps true false
    let s := runTest c (seen φ p.temporal) (seen φ p.spatial)
    (∀ t ∈ Dict.keys p.temporal, 0 ≤ φ t ∧ roundTo 3 (φ t) ≠ 0) →
    (∀ f ∈ s.saved, ∃ img, fload f = some (.ok img) ∧ img.h = c.height ∧ img.w = c.width) →
    ∃ r, emva1288 wr decFloat decInt fload ord (descriptorPath c) s.text = .ok r ∧
      r.temporal.u_p.length = p.temporal.length ∧ r.temporal.u_y.length = p.temporal.length ∧
      r.temporal.s2_y.length = p.temporal.length := by
  intro p s hφ hf
  obtain ⟨h1, h2, h3, h4, h5⟩ := C56_exposure emin emax steps true false hs
  have hall : ∀ e ∈ p.temporal, e.2 = [true, false] ∧ roundTo 1 e.1 = e.1 ∧ roundTo 3 (φ e.1) ≠ 0 := by
    intro e hm
    have hg := Dict.get?_of_mem h1 (k := e.1) (v := e.2) hm
    have e2 := h3 _ _ hg
    obtain ⟨i, -, hi⟩ := (h2 e.1).1 (e2 ▸ hg)
    exact ⟨e2, by rw [hi]; exact roundTo_round1 _, (hφ _ (Dict.mem_keys_of_get? hg)).2⟩
  have hk := keysDistinct_seen φ p.temporal h1 hall
  obtain ⟨t0, ht0⟩ : ∃ t, t = Cam.round1 (emin + (steps / 2 : ℕ) * ((emax - emin) / ((steps : ℚ) - 1))) := ⟨_, rfl⟩
  simp only [← ht0] at h4 h5
  have hmid : t0 ∈ Dict.keys p.temporal := Dict.mem_keys_of_get? h5
  have hsp : seen φ p.spatial = [(t0, [some (φ t0), none])] := by
    show seen φ (Cam.exposurePoints emin emax steps true false).spatial = _
    rw [h4]
    rfl
  have hks : KeysDistinct (seen φ p.spatial) := by
    refine keysDistinct_seen φ p.spatial ?_ ?_
    · show Dict.WF (Cam.exposurePoints emin emax steps true false).spatial
      rw [h4]
      simp [Dict.WF, Dict.keys]
    · intro e hm
      have hm' : e ∈ (Cam.exposurePoints emin emax steps true false).spatial := hm
      rw [h4] at hm'
      rw [List.mem_singleton.1 hm']
      exact ⟨rfl, by rw [ht0]; exact roundTo_round1 _, (hφ _ hmid).2⟩
  have hp : PairedPoints (seen φ p.temporal) := by
    intro t ht
    obtain ⟨e, hm, rfl⟩ := List.mem_map.1 ht
    simp only [(hall e hm).1]
    exact ⟨by simp, φ e.1, by simp⟩
  have hnn : ∀ t l, (t, l) ∈ p.temporal ∨ (t, l) ∈ p.spatial → 0 ≤ t := by
    have h0 : ∀ i, 0 ≤ Cam.round1 (emin + (i : ℕ) * ((emax - emin) / ((steps : ℚ) - 1))) := by
      intro i
      have hst : (0 : ℚ) ≤ (steps : ℚ) - 1 := by
        have : (1 : ℚ) ≤ steps := by exact_mod_cast hs
        linarith
      have : 0 ≤ emin + (i : ℚ) * ((emax - emin) / ((steps : ℚ) - 1)) :=
        add_nonneg he (mul_nonneg (by positivity) (div_nonneg (by linarith) hst))
      have h := Cam.round1_mono this
      have z : Cam.round1 (0 : ℚ) = 0 := by
        have := Cam.round1_tenth (F := ℚ) 0
        simpa using this
      rwa [z] at h
    rintro t l (hm | hm)
    · have hg := Dict.get?_of_mem h1 (k := t) (v := l) hm
      obtain ⟨i, -, rfl⟩ := (h2 t).1 ((h3 _ _ hg) ▸ hg)
      exact h0 i
    · have hm' : (t, l) ∈ (Cam.exposurePoints emin emax steps true false).spatial := hm
      rw [h4, List.mem_singleton, Prod.mk.injEq] at hm'
      rw [hm'.1, ht0]
      exact h0 _
  have hG : GenOK c (seen φ p.temporal) (seen φ p.spatial) := by
    refine ⟨hv, hext, ?_, hout⟩
    rintro ⟨t, r⟩ hq
    have : ∃ d : Dict ℚ (List Bool), (d = p.temporal ∨ d = p.spatial) ∧ (t, r) ∈ flat (seen φ d) := by
      rcases List.mem_append.1 hq with h | h
      · exact ⟨_, .inl rfl, h⟩
      · exact ⟨_, .inr rfl, h⟩
    obtain ⟨d, hd, hm⟩ := this
    obtain ⟨l, hl, hr⟩ := mem_flat.1 hm
    obtain ⟨⟨t', l'⟩, he', hee⟩ := List.mem_map.1 hl
    simp only [Prod.mk.injEq] at hee
    obtain ⟨rfl, rfl⟩ := hee
    refine ⟨hnn t' l' ?_, ?_⟩
    · rcases hd with rfl | rfl
      · exact .inl he'
      · exact .inr he'
    · intro x hx
      simp only at hx
      subst hx
      obtain ⟨b, -, hb⟩ := List.mem_map.1 hr
      split at hb
      · cases hb
        refine (hφ _ ?_).1
        rcases hd with rfl | rfl
        · exact List.mem_map.2 ⟨_, he', rfl⟩
        · have hm' : (t', l') ∈ (Cam.exposurePoints emin emax steps true false).spatial := he'
          rw [h4, List.mem_singleton, Prod.mk.injEq] at hm'
          rw [hm'.1]
          exact hmid
      · cases hb
  obtain ⟨r, g1, ⟨ks, g2, -, g3⟩, g4, g5, -⟩ := C63_generated_dataset c _ _ hG hL hk hks hp _ _ hsp hw hh fload hf wr ord hord
  have hlen : (brightKeys (seen φ p.temporal)).length = p.temporal.length := by
    have : ∀ d : Dict ℚ (List Bool), (∀ e ∈ d, e.2 = [true, false]) → (brightKeys (seen φ d)).length = d.length := by
      intro d hd
      induction d with
      | nil => rfl
      | cons x d ih =>
        obtain ⟨t, l⟩ := x
        obtain rfl : l = [true, false] := hd (t, l) (by simp)
        have hf : flat (seen φ ((t, [true, false]) :: d)) = (t, some (φ t)) :: (t, none) :: flat (seen φ d) := by
          simp [flat, seen]
        have := ih fun e he => hd e (by simp [he])
        simp only [brightKeys, List.length_map] at this ⊢
        rw [hf]
        simp [this]
    exact this _ fun e he => (hall e he).1
  refine ⟨r, g1, ?_, g4.trans hlen, g5.trans hlen⟩
  rw [g3, List.length_map, g2.length_eq, hlen]

/-! ### a case meeting the hypotheses -/

/-- three exposures from 1 to 2 (ns), 100 photons per ns: the points, the number of images, the photon counts -/
example : let c : Cfg := ⟨"4.0".toList, "png".toList, 3, 8, 3, 2, "out".toList⟩
    let p := Cam.exposurePoints (1 : ℚ) 2 3 true false
    let φ : ℚ → ℚ := fun t => 100 * t
    p.temporal = [(1, [true, false]), (3 / 2, [true, false]), (2, [true, false])] ∧
    p.spatial = [(3 / 2, [true, false])] ∧
    (runTest c (seen φ p.temporal) (seen φ p.spatial)).saved.length = 18 ∧
    ∀ t ∈ Dict.keys p.temporal, 0 ≤ φ t ∧ roundTo 3 (φ t) ≠ 0 := by
  decide +kernel

end Emva
