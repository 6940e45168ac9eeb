import Verif.Lemmas.Calib
import Verif.Lemmas.AffinePipeline
import Verif.Props.C15_C16

/-!
`LoadImageData` and `Data1288` on a descriptor in other units.
-/
set_option autoImplicit false
set_option linter.unusedSectionVars false
namespace Emva
open Spec Data Py Loader Parser
namespace Data
variable {V : Type} {a b : ℝ} (ha : 0 < a) (hb : 0 < b)

include ha in
theorem sortedKeys_scale {W : Type} {d : Dict ℝ V} {d' : Dict ℝ W} (h : Dict.WF d) (h' : Dict.WF d')
    (hk : ∀ k, k ∈ Dict.keys d ↔ a * k ∈ Dict.keys d') : sortedKeys d' = (sortedKeys d).map (a * ·) := by
  have h1 := sortedKeys_lt h
  have h2 := sortedKeys_lt h'
  have h3 : ((sortedKeys d).map (a * ·)).Pairwise (· < ·) := by
    rw [List.pairwise_map]
    exact h1.imp fun hxy => mul_lt_mul_of_pos_left hxy ha
  have hp : (sortedKeys d').Perm ((sortedKeys d).map (a * ·)) := by
    refine (List.perm_ext_iff_of_nodup (h2.imp fun h => h.ne) (h3.imp fun h => h.ne)).2 fun x => ?_
    rw [mem_sortedKeys, List.mem_map]
    constructor
    · intro hx
      refine ⟨x / a, ?_, by field_simp⟩
      rw [mem_sortedKeys, hk]
      rwa [mul_div_cancel₀ _ ha.ne']
    · rintro ⟨y, hy, rfl⟩
      rw [mem_sortedKeys, hk] at hy
      exact hy
  exact hp.eq_of_pairwise (fun x y _ _ h h' => absurd h' (not_lt.2 h.le)) h2 h3

theorem keys_of_get {d d' : Dict ℝ V} (h : ∀ p, Dict.get? d' (a * p) = Dict.get? d p) (k : ℝ) :
    k ∈ Dict.keys d ↔ a * k ∈ Dict.keys d' := by
  rw [← not_iff_not, ← Dict.get?_eq_none_iff, ← Dict.get?_eq_none_iff, h]

/-- the inner dictionaries -/
theorem relabelled_inner {d d' : Dict ℝ (Dict ℝ V)} (h : Relabelled a b d d') (e : ℝ) :
    (Dict.get? d e = none ∧ Dict.get? d' (b * e) = none) ∨
    ∃ i i', Dict.get? d e = some i ∧ Dict.get? d' (b * e) = some i' ∧ ∀ p, Dict.get? i' (a * p) = Dict.get? i p := by
  have hk := h.keys e
  have hf := h.files e
  cases hd : Dict.get? d e with
  | none =>
    left
    refine ⟨rfl, ?_⟩
    rw [Dict.get?_eq_none_iff, ← hk, ← Dict.get?_eq_none_iff, hd]
  | some i =>
    right
    cases hd' : Dict.get? d' (b * e) with
    | none =>
      rw [Dict.get?_eq_none_iff, ← hk, ← Dict.get?_eq_none_iff, hd] at hd'
      cases hd'
    | some i' =>
      refine ⟨i, i', rfl, rfl, fun p => ?_⟩
      have := hf p
      simp only [get2, hd, hd', Option.bind_some] at this
      exact this

/-- the temporal data in other units -/
noncomputable def unitsT (a b : ℝ) (t : Temporal ℝ) : Temporal ℝ :=
  { t with u_p := t.u_p.map (a * ·), texp := t.texp.map (b * ·) }

theorem brightLoop_units (px : ℕ) (i i' : Dict ℝ (TemporalEntry ℝ)) (h : ∀ p, Dict.get? i' (a * p) = Dict.get? i p)
    (ps : List ℝ) (t : Temporal ℝ) :
    brightLoop px i' (ps.map (a * ·)) (unitsT a b t) = (brightLoop px i ps t).map (unitsT a b) := by
  induction ps generalizing t with
  | nil => rfl
  | cons p ps ih =>
    simp only [List.map_cons, brightLoop, h]
    cases Dict.get? i p with
    | none => rfl
    | some e =>
      simp only
      rw [← ih]
      simp [unitsT]

include ha in
theorem expLoop_units (px : ℕ) {d d' : KindData ℝ (TemporalEntry ℝ)} (hw : WF2 d) (hw' : WF2 d')
    (h : Relabelled a b d d') (ts : List ℝ) (t : Temporal ℝ) :
    expLoop px d' (ts.map (b * ·)) (unitsT a b t) = (expLoop px d ts t).map (unitsT a b) := by
  induction ts generalizing t with
  | nil => rfl
  | cons e ts ih =>
    simp only [List.map_cons, expLoop]
    rcases relabelled_inner h e with ⟨h1, h2⟩ | ⟨i, i', h1, h2, h3⟩
    · rw [h1, h2]; rfl
    · rw [h1, h2]
      simp only
      rw [sortedKeys_scale ha (hw.2 _ _ h1) (hw'.2 _ _ h2) (keys_of_get h3)]
      have hz : (0 : ℝ) ∉ (sortedKeys i).map (a * ·) ↔ (0 : ℝ) ∉ sortedKeys i := by
        simp [ha.ne']
      simp only [hz, List.length_map]
      split
      · rfl
      · split
        · rfl
        · have h0 := h3 0
          rw [mul_zero] at h0
          rw [h0]
          cases Dict.get? i 0 with
          | none => rfl
          | some v =>
            simp only
            rw [← List.map_drop]
            have := brightLoop_units (a := a) (b := b) px i i' h3 ((sortedKeys i).drop 1)
              { t with u_ydark := t.u_ydark ++ [(getTemporalData px v).mean]
                       s2_ydark := t.s2_ydark ++ [(getTemporalData px v).var - (getTemporalData px v).dmean] }
            rw [show ({ unitsT a b t with
                u_ydark := (unitsT a b t).u_ydark ++ [(getTemporalData px v).mean]
                s2_ydark := (unitsT a b t).s2_ydark ++ [(getTemporalData px v).var - (getTemporalData px v).dmean] } : Temporal ℝ) =
              unitsT a b { t with u_ydark := t.u_ydark ++ [(getTemporalData px v).mean]
                                  s2_ydark := t.s2_ydark ++ [(getTemporalData px v).var - (getTemporalData px v).dmean] }
              from rfl, this]
            cases brightLoop px i ((sortedKeys i).drop 1)
              { t with u_ydark := t.u_ydark ++ [(getTemporalData px v).mean]
                       s2_ydark := t.s2_ydark ++ [(getTemporalData px v).var - (getTemporalData px v).dmean] } with
            | error e => rfl
            | ok t' => exact ih t'

include ha hb in
theorem getTemporal_units (px : ℕ) {d d' : KindData ℝ (TemporalEntry ℝ)} (hw : WF2 d) (hw' : WF2 d')
    (h : Relabelled a b d d') : getTemporal px d' = (getTemporal px d).map (unitsT a b) := by
  unfold getTemporal
  simp only
  rw [sortedKeys_scale hb hw.1 hw'.1 h.keys]
  have := expLoop_units ha px hw hw' h (sortedKeys d) ⟨sortedKeys d, [], [], [], [], []⟩
  rw [show unitsT a b ⟨sortedKeys d, [], [], [], [], []⟩ = ⟨(sortedKeys d).map (b * ·), [], [], [], [], []⟩ from rfl] at this
  rw [this]
  cases expLoop px d (sortedKeys d) ⟨sortedKeys d, [], [], [], [], []⟩ with
  | error e => rfl
  | ok t =>
    simp only [Except.map, List.length_map]
    split
    · simp only [unitsT, List.length_map]
      cases t.texp with
      | nil => rfl
      | cons x xs =>
        cases t.u_ydark with
        | nil => rfl
        | cons y ys =>
          cases t.s2_ydark with
          | nil => rfl
          | cons z zs => simp [repeatFirst]
    · rfl

/-- the spatial data in other units -/
noncomputable def unitsS (a b : ℝ) (s : Spatial ℝ) : Spatial ℝ := { s with u_p := a * s.u_p, texp := b * s.texp }

include ha hb in
theorem getSpatial_units (rows cols : ℕ) {d d' : KindData ℝ (IntImgs ℝ)} (hw : WF2 d) (hw' : WF2 d')
    (h : Relabelled a b d d') : getSpatial rows cols d' = (getSpatial rows cols d).map (unitsS a b) := by
  have hs := sortedKeys_scale hb hw.1 hw'.1 h.keys
  have hl : d'.length = d.length := by
    have := congrArg List.length hs
    rw [List.length_map, sortedKeys_length, sortedKeys_length] at this
    simpa [Dict.keys] using this
  match d, d', hl with
  | [], [], _ => rfl
  | _ :: _ :: _, _ :: _ :: _, _ => rfl
  | [(e, i)], [(e', i')], _ =>
    have he : e' = b * e := by simpa [sortedKeys, Dict.keys] using hs
    subst he
    have hi : ∀ p, Dict.get? i' (a * p) = Dict.get? i p := by
      intro p
      have := h.files e p
      simpa [get2, Dict.get?] using this
    have wi : Dict.WF i := hw.2 e i (by simp [Dict.get?])
    have wi' : Dict.WF i' := hw'.2 (b * e) i' (by simp [Dict.get?])
    unfold getSpatial
    simp only
    rw [sortedKeys_scale ha wi wi' (keys_of_get hi)]
    have hz : (0 : ℝ) ∉ (sortedKeys i).map (a * ·) ↔ (0 : ℝ) ∉ sortedKeys i := by simp [ha.ne']
    simp only [hz, List.length_map, List.getElem?_map]
    split
    · rfl
    · split
      · rfl
      · have h0 := hi 0
        rw [mul_zero] at h0
        rw [h0]
        cases Dict.get? i 0 with
        | none => rfl
        | some v =>
          simp only
          cases getSpatialData rows cols v with
          | error e => rfl
          | ok dk =>
            simp only
            cases (sortedKeys i)[1]? with
            | none => rfl
            | some p =>
              simp only [Option.map_some, hi]
              cases Dict.get? i p with
              | none => rfl
              | some w =>
                simp only
                cases getSpatialData rows cols w <;> rfl

end Data

namespace Loader
variable {a b : ℝ} (ha : 0 < a) (hb : 0 < b)

theorem named_units {images images' : Kind → Images ℝ} (h : ∀ k, Relabelled a b (images k) (images' k)) (ha : 0 < a)
    (hb : 0 < b) (f : Str) : Named images' f ↔ Named images f := by
  constructor
  · rintro ⟨k, e, p, fs, h1, h2⟩
    refine ⟨k, e / b, p / a, fs, ?_, h2⟩
    rw [← (h k).files, mul_div_cancel₀ _ ha.ne', mul_div_cancel₀ _ hb.ne', h1]
  · rintro ⟨k, e, p, fs, h1, h2⟩
    exact ⟨k, b * e, a * p, fs, by rw [(h k).files, h1], h2⟩

include ha hb in
theorem loadable_units {images images' : Kind → Images ℝ} (h : ∀ k, Relabelled a b (images k) (images' k))
    (fload : Str → Option (Except PyErr Img)) (path : Str) (hL : Loadable fload path 0 images) :
    Loadable fload path 0 images' := by
  have hn := fun f => named_units h ha hb f
  have key : ∀ k e i', Dict.get? (images' k) e = some i' → ∃ i, Dict.get? (images k) (e / b) = some i ∧
      ∀ p, Dict.get? i' (a * p) = Dict.get? i p := by
    intro k e i' hi'
    rcases relabelled_inner (h k) (e / b) with ⟨h1, h2⟩ | ⟨i, i'', h1, h2, h3⟩
    · rw [mul_div_cancel₀ _ hb.ne', hi'] at h2; cases h2
    · rw [mul_div_cancel₀ _ hb.ne', hi'] at h2
      cases h2
      exact ⟨i, h1, h3⟩
  refine ⟨?_, ?_, ?_, ?_, ?_⟩
  · intro k e i' hi'
    obtain ⟨i, h1, h2⟩ := key k e i' hi'
    obtain ⟨fs, h3⟩ := hL.dark k _ i h1
    exact ⟨fs, by rw [← h3, ← h2, mul_zero]⟩
  · intro k e i' hi'
    obtain ⟨i, h1, h2⟩ := key k e i' hi'
    obtain ⟨p, fs, h3, h4⟩ := hL.bright k _ i h1
    exact ⟨a * p, fs, mul_ne_zero ha.ne' h3, by rw [h2, h4]⟩
  · intro f hf
    exact hL.readable f ((hn f).1 hf)
  · intro f g x y hf hg
    exact hL.shape f g x y ((hn f).1 hf) ((hn g).1 hg)
  · obtain ⟨f, hf⟩ := hL.nonempty
    exact ⟨f, (hn f).2 hf⟩

include ha hb in
theorem load_units {images images' : Kind → Images ℝ} (h : ∀ k, Relabelled a b (images k) (images' k))
    (hw : ∀ k, WF2 (images k)) (hw' : ∀ k, WF2 (images' k)) (wr : ℤ → ℤ)
    (fload : Str → Option (Except PyErr Img)) (path : Str) (ord ord' : List ℝ → List ℝ) (hord : ∀ l, (ord l).Perm l)
    (hord' : ∀ l, (ord' l).Perm l) (r : Loaded ℝ ℝ) (hr : load wr fload path 0 ord images = .ok r) :
    ∃ r' : Loaded ℝ ℝ, load wr fload path 0 ord' images' = .ok r' ∧ Relabelled a b r.temporal r'.temporal ∧
      Relabelled a b r.spatial r'.spatial ∧ r'.height = r.height ∧ r'.width = r.width ∧
      WF2 r.temporal ∧ WF2 r.spatial ∧ WF2 r'.temporal ∧ WF2 r'.spatial := by
  have hL := (C15_acceptance (F := ℝ) wr fload path 0 ord hord images hw).1 ⟨r, hr⟩
  have hL' := loadable_units ha hb h fload path hL
  obtain ⟨r', hr'⟩ := (C15_acceptance (F := ℝ) wr fload path 0 ord' hord' images' hw').2 hL'
  obtain ⟨c1, c2, c3, c4, c5, c6, c7⟩ := C15_content wr fload path 0 ord hord images hw r hr
  obtain ⟨d1, d2, d3, d4, d5, d6, d7⟩ := C15_content wr fload path 0 ord' hord' images' hw' r' hr'
  obtain ⟨f, hf⟩ := hL.nonempty
  obtain ⟨img, hi⟩ := hL.readable f hf
  have hi : imageAt fload path f = some img := by unfold imageAt; rw [hi]
  have s1 := c5 f img hf hi
  have s2 := d5 f img ((named_units h ha hb f).2 hf) hi
  refine ⟨r', hr', ⟨fun e => ?_, fun e p => ?_⟩, ⟨fun e => ?_, fun e p => ?_⟩, ?_, ?_, c6, c7, d6, d7⟩
  · rw [c3, d3, (h .temporal).keys]
  · rw [c1, d1, (h .temporal).files]
  · rw [c4, d4, (h .spatial).keys]
  · rw [c2, d2, (h .spatial).files]
  · rw [← s1.1, ← s2.1]
  · rw [← s1.2, ← s2.2]

end Loader

namespace Pipeline
open Results
variable {a b : ℝ} (ha : 0 < a) (hb : 0 < b)

include ha hb in
theorem evaluate_units {images images' : Kind → Images ℝ} (h : ∀ k, Relabelled a b (images k) (images' k))
    (hw : ∀ k, WF2 (images k)) (hw' : ∀ k, WF2 (images' k)) (wr : ℤ → ℤ)
    (fload : Str → Option (Except PyErr Img)) (path : Str) (ord ord' : List ℝ → List ℝ) (hord : ∀ l, (ord l).Perm l)
    (hord' : ∀ l, (ord' l).Perm l) (px : Option ℕ) (area : Option ℝ) (idx : Option ℤ) (c : ℝ) (r : Res ℝ)
    (hr : evaluate wr fload path ord images px area idx = .ok r) :
    evaluate wr fload path ord' images' px (area.map (c * ·)) idx = .ok (inUnits a b c r) := by
  unfold evaluate at hr ⊢
  cases hl : (load wr fload path 0 ord images : Except PyErr (Loaded ℝ ℝ)) with
  | error e => rw [hl] at hr; cases hr
  | ok ld =>
    obtain ⟨ld', h1, h2, h3, h4, h5, w1, w2, w3, w4⟩ := load_units ha hb h hw hw' wr fload path ord ord' hord hord' ld hl
    rw [hl] at hr
    rw [h1]
    simp only [bind, Except.bind] at hr ⊢
    have hp : pixelsOf ld' px = pixelsOf ld px := by
      unfold pixelsOf
      rw [h4, h5]
    unfold Data.make at hr ⊢
    simp only [hp, h4, h5] at hr ⊢
    rw [getTemporal_units ha hb _ w1 w3 h2, getSpatial_units ha hb _ _ w2 w4 h3]
    cases ht : getTemporal (pixelsOf ld px) ld.temporal with
    | error e => rw [ht] at hr; simp at hr
    | ok t =>
      cases hs : getSpatial ld.height ld.width ld.spatial with
      | error e => rw [ht, hs] at hr; simp at hr
      | ok s =>
        rw [ht, hs] at hr
        cases hr
        rfl

end Pipeline
end Emva
