import Verif.Lemmas.Data
import Verif.Props.C15_C16

/-!
C17-C18: the temporal arrays of `Data1288`.
-/
set_option autoImplicit false
set_option linter.unusedSectionVars false
namespace Emva
open Py Loader Spec Data
variable {F : Type} [Field F] [LinearOrder F]

theorem expGood_iff {V : Type*} {d : Dict F (Dict F V)} (hw : WF2 d) :
    (∀ t ∈ Dict.keys d, ExpGood d t) ↔ Paired d := by
  constructor
  · intro h e i hi
    obtain ⟨j, hj, hz, hl⟩ := h e (Dict.mem_keys_of_get? hi)
    rw [hi] at hj; cases hj
    exact ⟨(Dict.has_iff_exists _ _).1 ((Dict.has_iff _ _).2 hz),
      (two_keys (hw.2 e i hi) 0 hz).1 hl⟩
  · intro h t ht
    obtain ⟨i, hi⟩ := (Dict.has_iff_exists _ _).1 ((Dict.has_iff _ _).2 ht)
    obtain ⟨h1, h2⟩ := h t i hi
    have hz := (Dict.has_iff _ _).1 ((Dict.has_iff_exists _ _).2 h1)
    exact ⟨i, hi, hz, (two_keys (hw.2 t i hi) 0 hz).2 h2⟩

/-- what `_get_temporal` computes on acceptable data -/
theorem getTemporal_ok (px : ℕ) {d : KindData F (TemporalEntry F)} (hw : WF2 d) (hp : Paired d) :
    ∃ t, getTemporal px d = .ok t ∧
      t.u_p = (brightPts d (sortedKeys d)).map (·.2.1) ∧
      t.u_y = (brightPts d (sortedKeys d)).map (fun x => (seriesPoint px x.2.2).1) ∧
      t.s2_y = (brightPts d (sortedKeys d)).map (fun x => (seriesPoint px x.2.2).2) ∧
      (d.length ≠ 1 → t.texp = sortedKeys d ∧
        t.u_ydark = (darkPts d (sortedKeys d)).map (fun x => (seriesPoint px x.2).1) ∧
        t.s2_ydark = (darkPts d (sortedKeys d)).map (fun x => (seriesPoint px x.2).2)) ∧
      (d.length = 1 → ∃ e v, sortedKeys d = [e] ∧ get2 d e 0 = some v ∧
        t.texp = List.replicate t.u_p.length e ∧
        t.u_ydark = List.replicate t.u_p.length (seriesPoint px v).1 ∧
        t.s2_ydark = List.replicate t.u_p.length (seriesPoint px v).2) := by
  have hg := (expGood_iff hw).2 hp
  have hl : (sortedKeys d).length = d.length := by
    rw [sortedKeys_length]; simp [Dict.keys]
  unfold getTemporal
  simp only
  rw [expLoop_ok px d _ _ fun t ht => hg t ((mem_sortedKeys d t).1 ht)]
  simp only
  by_cases h1 : d.length = 1
  · rw [if_pos (by rw [hl, h1])]
    obtain ⟨e, he⟩ := List.length_eq_one_iff.1 (hl.trans h1)
    have hem : e ∈ Dict.keys d := (mem_sortedKeys d e).1 (by rw [he]; simp)
    obtain ⟨i, hi⟩ := (Dict.has_iff_exists _ _).1 ((Dict.has_iff _ _).2 hem)
    obtain ⟨⟨v, hv⟩, -⟩ := hp e i hi
    have hv2 : get2 d e 0 = some v := by simp [get2, hi, hv]
    have hd : darkPts d [e] = [(e, v)] := by simp [darkPts, hv2]
    rw [he]
    simp only [addAll, hd, repeatFirst, List.map_cons, List.map_nil, List.nil_append]
    refine ⟨_, rfl, rfl, rfl, rfl, fun h => absurd h1 h, fun _ => ⟨e, v, rfl, hv2, rfl, rfl, rfl⟩⟩
  · rw [if_neg (by rw [hl]; exact h1)]
    refine ⟨_, rfl, ?_, ?_, ?_, fun _ => ⟨?_, ?_, ?_⟩, fun h => absurd h h1⟩ <;>
      simp [addAll]

/-- C17: a loaded dictionary is accepted exactly when every exposure has a dark and a bright series;
anything else is a `ValueError`. -/
theorem C17_acceptance (px : ℕ) (d : KindData F (TemporalEntry F)) (hw : WF2 d) :
    (Paired d → ∃ t, getTemporal px d = .ok t) ∧
    (¬ Paired d → getTemporal px d = .error .valueError) := by
  constructor
  · intro hp
    obtain ⟨t, ht, -⟩ := getTemporal_ok px hw hp
    exact ⟨t, ht⟩
  · intro hp
    unfold getTemporal
    simp only
    rw [expLoop_error px d _ _ (fun t ht => (mem_sortedKeys d t).1 ht)]
    intro hc
    exact hp ((expGood_iff hw).1 fun t ht => hc t ((mem_sortedKeys d t).2 ht))

/-- C17: with non-negative photon counts, the arrays `u_p`, `u_y`, `s2_y` list exactly the bright
series, ordered by exposure and then photon count, each index belonging to one series. -/
theorem C17_sorted_aligned (px : ℕ) (d : KindData F (TemporalEntry F)) (hw : WF2 d)
    (hn : NonNegPhotons d) (t : Temporal F) (ht : getTemporal px d = .ok t) :
    ∃ pts, Bright d pts ∧ t.u_p = pts.map (·.2.1) ∧
      t.u_y = pts.map (fun x => (seriesPoint px x.2.2).1) ∧
      t.s2_y = pts.map (fun x => (seriesPoint px x.2.2).2) := by
  have hp : Paired d := by
    by_contra hc
    rw [(C17_acceptance px d hw).2 hc] at ht
    simp at ht
  obtain ⟨t', ht', h1, h2, h3, -⟩ := getTemporal_ok px hw hp
  rw [ht] at ht'
  cases ht'
  exact ⟨_, bright_brightPts hw ((expGood_iff hw).2 hp) hn, h1, h2, h3⟩

/-- The list in `C17_sorted_aligned` is determined by the dictionary. -/
theorem C17_bright_unique {V : Type*} (d : Dict F (Dict F V)) (pts pts' : List (F × F × V))
    (h : Bright d pts) (h' : Bright d pts') : pts = pts' := by
  have irr : ∀ {l : List (F × F × V)}, Bright d l → l.Nodup := fun hl =>
    hl.sorted.imp fun {a b} hab he => by
      subst he
      rcases hab with h | h
      · exact lt_irrefl _ h
      · exact lt_irrefl _ h.2
  have hperm : pts.Perm pts' := (List.perm_ext_iff_of_nodup (irr h) (irr h')).2 fun x => by
    obtain ⟨e, p, v⟩ := x
    rw [h.mem, h'.mem]
  refine hperm.eq_of_pairwise ?_ h.sorted h'.sorted
  intro a b _ _ hab hba
  rcases hab with h1 | ⟨h1, h1'⟩ <;> rcases hba with h2 | ⟨h2, h2'⟩
  · exact absurd (h1.trans h2) (lt_irrefl _)
  · exact absurd (h2 ▸ h1) (lt_irrefl _)
  · exact absurd (h1 ▸ h2) (lt_irrefl _)
  · exact absurd (h1'.trans h2') (lt_irrefl _)

/-- one exposure with a dark pair and two bright pairs; the second photon count is a parameter -/
def sampleSeries (p : ℚ) : KindData ℚ (TemporalEntry ℚ) :=
  [(5, [(7, ⟨8, 4, .fin 0⟩), (0, ⟨2, 0, .fin 0⟩), (p, ⟨4, 4, .fin 1⟩)])]

/-- the sample is accepted, sorted by photon count, dark arrays repeated -/
example : getTemporal 2 (sampleSeries 3) =
    .ok ⟨[5, 5], [3, 7], [.fin 1, .fin 2], [.fin 0, .fin (1 / 2)], [.fin (1 / 2), .fin (1 / 2)],
      [.fin 0, .fin 0]⟩ := by
  decide +kernel

example : WF2 (sampleSeries 3) ∧ NonNegPhotons (sampleSeries 3) := by
  refine ⟨⟨by unfold Dict.WF; decide +kernel, ?_⟩, ?_⟩
  · intro e i h
    simp only [sampleSeries, Dict.get?] at h
    split at h
    · simp at h; subst h; unfold Dict.WF; decide +kernel
    · simp at h
  · intro e p v h
    simp only [sampleSeries, get2, Dict.get?] at h
    split at h
    · simp only [Option.bind_some, Dict.get?] at h
      repeat' split at h
      all_goals try (simp at h)
      all_goals (rename_i h'; rw [← h']; try norm_num)
    · simp at h

/-- C17, negative photon counts: the code drops the smallest photon count as if it were the dark one,
so a data set with a negative photon count loses that series and lists the dark series as a bright
point. -/
theorem C17_negative_photons_break :
    ∃ d : KindData ℚ (TemporalEntry ℚ), Paired d ∧ ∃ t, getTemporal 2 d = .ok t ∧
      (0 : ℚ) ∈ t.u_p ∧ (∃ p v, p ≠ 0 ∧ get2 d 5 p = some v ∧ p ∉ t.u_p) := by
  refine ⟨sampleSeries (-3), ?_, ⟨[5, 5], [0, 7], [.fin (1 / 2), .fin 2], [.fin 0, .fin (1 / 2)],
    [.fin (1 / 2), .fin (1 / 2)], [.fin 0, .fin 0]⟩, by decide +kernel, by simp,
    -3, ⟨4, 4, .fin 1⟩, by norm_num, ?_, by norm_num⟩
  · intro e i h
    simp only [sampleSeries, Dict.get?] at h
    split at h
    · simp at h; subst h
      exact ⟨⟨_, rfl⟩, 7, _, by norm_num, rfl⟩
    · simp at h
  · simp [sampleSeries, get2, Dict.get?]
    norm_num

theorem length_flatMap_one {α β : Type*} (f : α → List β) (l : List α)
    (h : ∀ a ∈ l, 1 ≤ (f a).length) :
    l.length ≤ (l.flatMap f).length ∧
    ((l.flatMap f).length = l.length ↔ ∀ a ∈ l, (f a).length = 1) := by
  induction l with
  | nil => simp
  | cons a l ih =>
    obtain ⟨i1, i2⟩ := ih fun b hb => h b (by simp [hb])
    have ha := h a (by simp)
    simp only [List.flatMap_cons, List.length_append, List.length_cons, List.mem_cons,
      forall_eq_or_imp]
    refine ⟨by omega, ?_⟩
    rw [← i2]
    omega

theorem flatMap_one_forall₂ {α β : Type*} (f : α → List β) (l : List α) (R : α → β → Prop)
    (h : ∀ a ∈ l, (f a).length = 1) (hR : ∀ a ∈ l, ∀ b ∈ f a, R a b) :
    List.Forall₂ R l (l.flatMap f) := by
  induction l with
  | nil => simp
  | cons a l ih =>
    obtain ⟨b, hb⟩ := List.length_eq_one_iff.1 (h a (by simp))
    rw [List.flatMap_cons, hb]
    exact .cons (hR a (by simp) b (by rw [hb]; simp))
      (ih (fun c hc => h c (by simp [hc])) fun c hc => hR c (by simp [hc]))

/-- C18: the six arrays have one length, and the dark arrays at index `i` hold the dark series of the
exposure of bright point `i`, exactly when there is a single exposure or every exposure has exactly
one bright series.  Otherwise the exposure and dark arrays are strictly shorter. -/
theorem C18_lengths (px : ℕ) (d : KindData F (TemporalEntry F)) (hw : WF2 d)
    (hn : NonNegPhotons d) (t : Temporal F) (ht : getTemporal px d = .ok t)
    (pts : List (F × F × TemporalEntry F)) (hb : Bright d pts) :
    t.u_y.length = t.u_p.length ∧ t.s2_y.length = t.u_p.length ∧
    t.u_ydark.length = t.texp.length ∧ t.s2_ydark.length = t.texp.length ∧
    ((d.length = 1 ∨ ∀ e ∈ Dict.keys d, ∃! p, p ≠ 0 ∧ (get2 d e p).isSome) →
      t.texp = pts.map (·.1) ∧
      ∃ dk, List.Forall₂ (fun x v => get2 d x.1 0 = some v) pts dk ∧
        t.u_ydark = dk.map (fun v => (seriesPoint px v).1) ∧
        t.s2_ydark = dk.map (fun v => (seriesPoint px v).2)) ∧
    (¬ (d.length = 1 ∨ ∀ e ∈ Dict.keys d, ∃! p, p ≠ 0 ∧ (get2 d e p).isSome) →
      t.texp.length < t.u_p.length) := by
  have hp : Paired d := by
    by_contra hc
    rw [(C17_acceptance px d hw).2 hc] at ht
    simp at ht
  have hg := (expGood_iff hw).2 hp
  have hB := bright_brightPts hw hg hn
  have hpts := C17_bright_unique d _ _ hb hB
  obtain ⟨t', ht', h1, h2, h3, h4, h5⟩ := getTemporal_ok px hw hp
  rw [ht] at ht'
  cases ht'
  rw [← hpts] at h1 h2 h3
  have hD := dark_darkPts hw
  have hdl : (darkPts d (sortedKeys d)).map (·.1) = sortedKeys d := by
    unfold darkPts
    rw [List.map_filterMap]
    have : ∀ l : List F, (∀ e ∈ l, e ∈ Dict.keys d) →
        l.filterMap (fun e => ((get2 d e 0).map (e, ·)).map (·.1)) = l := by
      intro l hl
      induction l with
      | nil => rfl
      | cons e l ih =>
        obtain ⟨i, hi⟩ := (Dict.has_iff_exists _ _).1 ((Dict.has_iff _ _).2 (hl e (by simp)))
        obtain ⟨⟨v, hv⟩, -⟩ := hp e i hi
        rw [List.filterMap_cons]
        have : get2 d e 0 = some v := by simp [get2, hi, hv]
        simp only [this, Option.map_some]
        rw [ih fun q hq => hl q (by simp [hq])]
    exact this _ fun e he => (mem_sortedKeys d e).1 he
  have hdl' : (darkPts d (sortedKeys d)).length = (sortedKeys d).length := by
    conv_rhs => rw [← hdl]
    simp
  -- the bright series of one exposure
  let f : F → List (F × F × TemporalEntry F) := brightAt d
  have hf : brightPts d (sortedKeys d) = (sortedKeys d).flatMap f := rfl
  have hfi : ∀ e i, Dict.get? d e = some i → f e = (brightEnts i).map (e, ·) := by
    intro e i hi
    show brightAt d e = _
    unfold brightAt
    rw [hi]
  have hf1 : ∀ e ∈ sortedKeys d, 1 ≤ (f e).length := by
    intro e he
    obtain ⟨i, hi, hz, hl⟩ := hg e ((mem_sortedKeys d e).1 he)
    rw [hfi e i hi, List.length_map, brightEnts, entsOf_length _ _ fun p hp =>
      (mem_sortedKeys i p).1 (List.mem_of_mem_drop hp), List.length_drop, sortedKeys_length]
    omega
  have hfR : ∀ e ∈ sortedKeys d, ∀ x ∈ f e, x.1 = e ∧ x.2.1 ≠ 0 ∧ (get2 d e x.2.1) = some x.2.2 := by
    intro e he x hx
    obtain ⟨i, hi, -⟩ := hg e ((mem_sortedKeys d e).1 he)
    have hx' := hx
    rw [hfi e i hi] at hx
    obtain ⟨y, hy, rfl⟩ := List.mem_map.1 hx
    have hm : (e, y.1, y.2) ∈ brightPts d (sortedKeys d) := by
      rw [hf]; exact List.mem_flatMap.2 ⟨e, he, hx'⟩
    have := (hB.mem e y.1 y.2).1 hm
    exact ⟨rfl, this.1, this.2⟩
  have hone : (∀ e ∈ sortedKeys d, (f e).length = 1) ↔
      ∀ e ∈ Dict.keys d, ∃! p, p ≠ 0 ∧ (get2 d e p).isSome := by
    constructor
    · intro h e he
      have he' := (mem_sortedKeys d e).2 he
      obtain ⟨x, hx⟩ := List.length_eq_one_iff.1 (h e he')
      have hxr := hfR e he' x (by rw [hx]; simp)
      refine ⟨x.2.1, ⟨hxr.2.1, by rw [hxr.2.2]; rfl⟩, ?_⟩
      rintro q ⟨hq, hs⟩
      obtain ⟨v, hv⟩ := Option.isSome_iff_exists.1 hs
      have hm := (hB.mem e q v).2 ⟨hq, hv⟩
      rw [hf] at hm
      obtain ⟨e', he'', hm'⟩ := List.mem_flatMap.1 hm
      have : e = e' := (hfR e' he'' _ hm').1
      subst this
      rw [hx] at hm'
      simp at hm'
      rw [← hm']
    · intro h e he
      obtain ⟨q, hq, huniq⟩ := h e ((mem_sortedKeys d e).1 he)
      obtain ⟨i, hi, -⟩ := hg e ((mem_sortedKeys d e).1 he)
      have hnd : (f e).Pairwise fun a b => a.2.1 ≠ b.2.1 := by
        rw [hfi e i hi, List.pairwise_map]
        exact (entsOf_sorted i _ (List.Pairwise.sublist (List.drop_sublist _ _)
          (sortedKeys_lt (hw.2 e i hi)))).imp fun h => h.ne
      have hall : ∀ x ∈ f e, x.2.1 = q := fun x hx => by
        have := hfR e he x hx
        exact huniq _ ⟨this.2.1, by rw [this.2.2]; rfl⟩
      match hfe : f e with
      | [] => have := hf1 e he; rw [hfe] at this; simp at this
      | [x] => rfl
      | x :: y :: l =>
        rw [hfe] at hnd hall
        rw [List.pairwise_cons] at hnd
        exact absurd ((hall x (by simp)).trans (hall y (by simp)).symm) (hnd.1 y (by simp))
  have hcount := length_flatMap_one f (sortedKeys d) hf1
  rw [← hf, ← hpts] at hcount
  have hup : t.u_p.length = pts.length := by rw [h1]; simp
  refine ⟨by rw [h1, h2]; simp, by rw [h1, h3]; simp, ?_, ?_, ?_, ?_⟩
  · by_cases hd : d.length = 1
    · obtain ⟨e, v, -, -, a, b, c⟩ := h5 hd
      rw [a, b]; simp
    · obtain ⟨a, b, c⟩ := h4 hd
      rw [a, b]; simpa using hdl'
  · by_cases hd : d.length = 1
    · obtain ⟨e, v, -, -, a, b, c⟩ := h5 hd
      rw [a, c]; simp
    · obtain ⟨a, b, c⟩ := h4 hd
      rw [a, c]; simpa using hdl'
  · intro hcase
    by_cases hd : d.length = 1
    · obtain ⟨e, v, he, hv, a, b, c⟩ := h5 hd
      have hall : ∀ x ∈ pts, x.1 = e := by
        rw [hpts, hf, he]
        intro x hx
        obtain ⟨e', he', hm⟩ := List.mem_flatMap.1 hx
        have : e' = e := by simpa using he'
        subst this
        exact (hfR e' (by rw [he]; simp) x hm).1
      refine ⟨?_, pts.map fun _ => v, ?_, ?_, ?_⟩
      · rw [a, hup]
        symm
        rw [List.eq_replicate_iff]
        refine ⟨by simp, ?_⟩
        intro x hx
        obtain ⟨y, hy, rfl⟩ := List.mem_map.1 hx
        exact hall y hy
      · rw [List.forall₂_map_right_iff, List.forall₂_same]
        intro x hx
        rw [hall x hx, hv]
      · rw [b, hup]; simp [List.map_const']
      · rw [c, hup]; simp [List.map_const']
    · obtain ⟨a, b, c⟩ := h4 hd
      have hlen := hone.2 (hcase.resolve_left hd)
      have hF := flatMap_one_forall₂ f (sortedKeys d) (fun e x => x.1 = e) hlen
        fun e he x hx => (hfR e he x hx).1
      rw [← hf, ← hpts] at hF
      have hmap : ∀ (l : List F) (m : List (F × F × TemporalEntry F)),
          List.Forall₂ (fun e x => x.1 = e) l m → l = m.map (·.1) := by
        intro l m h
        induction h with
        | nil => rfl
        | cons h _ ih => simp [h, ih]
      have hse := hmap _ _ hF
      refine ⟨a.trans hse, (darkPts d (sortedKeys d)).map (·.2), ?_, ?_, ?_⟩
      · have : List.Forall₂ (fun (x : F × F × TemporalEntry F) (y : F × TemporalEntry F) =>
            x.1 = y.1) pts (darkPts d (sortedKeys d)) := by
          have : pts.map (·.1) = (darkPts d (sortedKeys d)).map (·.1) := by rw [hdl, ← hse]
          rw [← List.forall₂_eq_eq_eq, List.forall₂_map_left_iff, List.forall₂_map_right_iff] at this
          exact this
        rw [List.forall₂_map_right_iff]
        have aux : ∀ (m : List (F × F × TemporalEntry F)) (l : List (F × TemporalEntry F)),
            (∀ y ∈ l, get2 d y.1 0 = some y.2) →
            List.Forall₂ (fun x y => x.1 = y.1) m l →
            List.Forall₂ (fun x y => get2 d x.1 0 = some y.2) m l := by
          intro m l hm h
          induction h with
          | nil => exact .nil
          | cons hh _ ih =>
            exact .cons (by rw [hh]; exact hm _ (by simp)) (ih fun y hy => hm y (by simp [hy]))
        exact aux _ _ (fun y hy => (hD.mem y.1 y.2).1 hy) this
      · rw [b, List.map_map]; rfl
      · rw [c, List.map_map]; rfl
  · intro hcase
    push Not at hcase
    obtain ⟨hd, e, he, hne⟩ := hcase
    obtain ⟨a, b, c⟩ := h4 hd
    rw [a, hup]
    refine lt_of_le_of_ne hcount.1 fun heq => hne ?_
    exact hone.1 (hcount.2.1 heq.symm) e he

/-- two exposures, the second with two bright points: exposure and dark arrays are shorter -/
def sampleMixed (extra : List (ℚ × TemporalEntry ℚ)) : KindData ℚ (TemporalEntry ℚ) :=
  [(9, [(0, ⟨6, 0, .fin 0⟩), (4, ⟨10, 4, .fin 0⟩)]),
   (5, [(0, ⟨2, 0, .fin 0⟩), (2, ⟨4, 4, .fin 0⟩)] ++ extra)]

example : getTemporal 1 (sampleMixed []) =
      .ok ⟨[5, 9], [2, 4], [.fin 2, .fin 5], [.fin 1, .fin 1], [.fin 1, .fin 3],
        [.fin 0, .fin 0]⟩ ∧
    getTemporal 1 (sampleMixed [(3, ⟨6, 4, .fin 0⟩)]) =
      .ok ⟨[5, 9], [2, 3, 4], [.fin 2, .fin 3, .fin 5], [.fin 1, .fin 1, .fin 1],
        [.fin 1, .fin 3], [.fin 0, .fin 0]⟩ := by
  decide +kernel

end Emva
