import Verif.Model.Data
import Verif.Spec.Data

/-!
Lemmas about the temporal loops of `Data1288`.
-/
set_option autoImplicit false
set_option linter.unusedSectionVars false
namespace Emva
namespace Data
open Py Loader Spec
variable {F : Type} [Field F] [LinearOrder F] {V : Type*}

theorem mem_sortedKeys (d : Dict F V) (k : F) : k ∈ sortedKeys d ↔ k ∈ Dict.keys d :=
  List.mem_insertionSort _

theorem sortedKeys_length (d : Dict F V) : (sortedKeys d).length = (Dict.keys d).length :=
  List.length_insertionSort _ _

theorem sortedKeys_lt {d : Dict F V} (h : Dict.WF d) : (sortedKeys d).Pairwise (· < ·) := by
  have h1 : (sortedKeys d).Pairwise (· ≤ ·) := List.pairwise_insertionSort _ _
  have h2 : (sortedKeys d).Nodup := (List.perm_insertionSort _ _).nodup_iff.2 h
  exact (h1.and h2).imp fun ⟨a, b⟩ => lt_of_le_of_ne a b

/-- the series a list of photon counts refers to -/
def entsOf (inner : Dict F V) (ps : List F) : List (F × V) :=
  ps.filterMap fun p => (Dict.get? inner p).map (p, ·)

theorem entsOf_length (inner : Dict F V) (ps : List F) (h : ∀ p ∈ ps, p ∈ Dict.keys inner) :
    (entsOf inner ps).length = ps.length := by
  induction ps with
  | nil => rfl
  | cons p ps ih =>
    obtain ⟨v, hv⟩ := (Dict.has_iff_exists _ _).1 ((Dict.has_iff _ _).2 (h p (by simp)))
    have e : entsOf inner (p :: ps) = (p, v) :: entsOf inner ps := by
      simp [entsOf, hv]
    rw [e, List.length_cons, List.length_cons, ih fun q hq => h q (by simp [hq])]

theorem mem_entsOf (inner : Dict F V) (ps : List F) (p : F) (v : V) :
    (p, v) ∈ entsOf inner ps ↔ p ∈ ps ∧ Dict.get? inner p = some v := by
  unfold entsOf
  simp only [List.mem_filterMap, Option.map_eq_some_iff, Prod.mk.injEq]
  constructor
  · rintro ⟨q, hq, w, hw, rfl, rfl⟩; exact ⟨hq, hw⟩
  · rintro ⟨h1, h2⟩; exact ⟨p, h1, v, h2, rfl, rfl⟩

theorem entsOf_sorted (inner : Dict F V) (ps : List F) (h : ps.Pairwise (· < ·)) :
    (entsOf inner ps).Pairwise fun a b => a.1 < b.1 := by
  unfold entsOf
  rw [List.pairwise_filterMap]
  refine h.imp fun {a b} hab x hx y hy => ?_
  rw [Option.map_eq_some_iff] at hx hy
  obtain ⟨_, _, rfl⟩ := hx
  obtain ⟨_, _, rfl⟩ := hy
  exact hab

/-- a series with its exposure appended to the accumulated arrays -/
def addBright (px : ℕ) (a : Temporal F) (es : List (F × TemporalEntry F)) : Temporal F :=
  { a with
    u_p := a.u_p ++ es.map (·.1)
    u_y := a.u_y ++ es.map fun x => (seriesPoint px x.2).1
    s2_y := a.s2_y ++ es.map fun x => (seriesPoint px x.2).2 }

theorem brightLoop_eq (px : ℕ) (inner : Dict F (TemporalEntry F)) (ps : List F) (a : Temporal F)
    (h : ∀ p ∈ ps, p ∈ Dict.keys inner) :
    brightLoop px inner ps a = .ok (addBright px a (entsOf inner ps)) := by
  induction ps generalizing a with
  | nil => simp [brightLoop, addBright, entsOf]
  | cons p ps ih =>
    obtain ⟨v, hv⟩ := (Dict.has_iff_exists _ _).1 ((Dict.has_iff _ _).2 (h p (by simp)))
    rw [brightLoop]
    simp only [hv]
    rw [ih _ fun q hq => h q (by simp [hq])]
    have e : entsOf inner (p :: ps) = (p, v) :: entsOf inner ps := by
      simp [entsOf, hv]
    rw [e]
    simp [addBright, seriesPoint]

/-- the bright series of an exposure: all sorted photon counts but the first -/
def brightEnts (inner : Dict F V) : List (F × V) := entsOf inner ((sortedKeys inner).drop 1)

/-- the bright series of one exposure -/
def brightAt (d : Dict F (Dict F V)) (e : F) : List (F × F × V) :=
  match Dict.get? d e with
  | none => []
  | some i => (brightEnts i).map (e, ·)

/-- all bright series -/
def brightPts (d : Dict F (Dict F V)) (ts : List F) : List (F × F × V) := ts.flatMap (brightAt d)

/-- all dark series -/
def darkPts (d : Dict F (Dict F V)) (ts : List F) : List (F × V) :=
  ts.filterMap fun e => (get2 d e 0).map (e, ·)

/-- requirements on one exposure -/
def ExpGood (d : Dict F (Dict F V)) (e : F) : Prop :=
  ∃ i, Dict.get? d e = some i ∧ (0 : F) ∈ Dict.keys i ∧ 2 ≤ (Dict.keys i).length

/-- the arrays after the loop -/
def addAll (px : ℕ) (a : Temporal F) (d : KindData F (TemporalEntry F)) (ts : List F) :
    Temporal F :=
  { a with
    u_p := a.u_p ++ (brightPts d ts).map (·.2.1)
    u_y := a.u_y ++ (brightPts d ts).map fun x => (seriesPoint px x.2.2).1
    s2_y := a.s2_y ++ (brightPts d ts).map fun x => (seriesPoint px x.2.2).2
    u_ydark := a.u_ydark ++ (darkPts d ts).map fun x => (seriesPoint px x.2).1
    s2_ydark := a.s2_ydark ++ (darkPts d ts).map fun x => (seriesPoint px x.2).2 }

theorem expLoop_ok (px : ℕ) (d : KindData F (TemporalEntry F)) (ts : List F) (a : Temporal F)
    (h : ∀ t ∈ ts, ExpGood d t) : expLoop px d ts a = .ok (addAll px a d ts) := by
  induction ts generalizing a with
  | nil => simp [expLoop, addAll, brightPts, darkPts]
  | cons t ts ih =>
    obtain ⟨i, hi, hz, hl⟩ := h t (by simp)
    obtain ⟨v, hv⟩ := (Dict.has_iff_exists _ _).1 ((Dict.has_iff _ _).2 hz)
    rw [expLoop]
    simp only [hi]
    have h1 : ¬ ((0 : F) ∉ sortedKeys i) := by rw [mem_sortedKeys]; exact not_not.2 hz
    have h2 : ¬ ((sortedKeys i).length < 2) := by rw [sortedKeys_length]; omega
    rw [if_neg h1, if_neg h2]
    simp only [hv]
    rw [brightLoop_eq px i _ _ fun p hp => (mem_sortedKeys i p).1 (List.mem_of_mem_drop hp)]
    simp only
    rw [ih _ fun q hq => h q (by simp [hq])]
    have e1 : brightPts d (t :: ts) = (brightEnts i).map (t, ·) ++ brightPts d ts := by
      simp [brightPts, brightAt, hi]
    have e2 : darkPts d (t :: ts) = (t, v) :: darkPts d ts := by
      simp [darkPts, get2, hi, hv]
    rw [addAll, addAll, e1, e2]
    simp [addBright, brightEnts, seriesPoint, List.map_map, Function.comp_def]

theorem expLoop_error (px : ℕ) (d : KindData F (TemporalEntry F)) (ts : List F) (a : Temporal F)
    (hk : ∀ t ∈ ts, t ∈ Dict.keys d)
    (h : ¬ ∀ t ∈ ts, ExpGood d t) : expLoop px d ts a = .error .valueError := by
  induction ts generalizing a with
  | nil => simp at h
  | cons t ts ih =>
    obtain ⟨i, hi⟩ := (Dict.has_iff_exists _ _).1 ((Dict.has_iff _ _).2 (hk t (by simp)))
    rw [expLoop]
    simp only [hi]
    by_cases hz : (0 : F) ∈ Dict.keys i
    · by_cases hl : 2 ≤ (Dict.keys i).length
      · obtain ⟨v, hv⟩ := (Dict.has_iff_exists _ _).1 ((Dict.has_iff _ _).2 hz)
        have h1 : ¬ ((0 : F) ∉ sortedKeys i) := by rw [mem_sortedKeys]; exact not_not.2 hz
        have h2 : ¬ ((sortedKeys i).length < 2) := by rw [sortedKeys_length]; omega
        rw [if_neg h1, if_neg h2]
        simp only [hv]
        rw [brightLoop_eq px i _ _ fun p hp => (mem_sortedKeys i p).1 (List.mem_of_mem_drop hp)]
        simp only
        refine ih _ (fun q hq => hk q (by simp [hq])) fun hc => h ?_
        intro q hq
        rcases List.mem_cons.1 hq with rfl | hq
        · exact ⟨i, hi, hz, hl⟩
        · exact hc q hq
      · have h1 : ¬ ((0 : F) ∉ sortedKeys i) := by rw [mem_sortedKeys]; exact not_not.2 hz
        have h2 : (sortedKeys i).length < 2 := by rw [sortedKeys_length]; omega
        rw [if_neg h1, if_pos h2]
    · have h1 : (0 : F) ∉ sortedKeys i := by rw [mem_sortedKeys]; exact hz
      rw [if_pos h1]

theorem darkPts_mem (d : Dict F (Dict F V)) (e : F) (v : V) :
    (e, v) ∈ darkPts d (sortedKeys d) ↔ get2 d e 0 = some v := by
  unfold darkPts
  simp only [List.mem_filterMap, Option.map_eq_some_iff, Prod.mk.injEq]
  constructor
  · rintro ⟨q, hq, w, hw, rfl, rfl⟩; exact hw
  · intro h
    obtain ⟨i, hi, -⟩ := Option.bind_eq_some_iff.1 h
    exact ⟨e, (mem_sortedKeys d e).2 (Dict.mem_keys_of_get? hi), v, h, rfl, rfl⟩

theorem dark_darkPts {d : Dict F (Dict F V)} (hw : WF2 d) : Dark d (darkPts d (sortedKeys d)) := by
  refine ⟨darkPts_mem d, ?_⟩
  unfold darkPts
  rw [List.pairwise_filterMap]
  refine (sortedKeys_lt hw.1).imp fun {a b} hab x hx y hy => ?_
  rw [Option.map_eq_some_iff] at hx hy
  obtain ⟨_, _, rfl⟩ := hx
  obtain ⟨_, _, rfl⟩ := hy
  exact hab

/-- the first sorted photon count is the dark one when there is no negative one -/
theorem sortedKeys_zero {i : Dict F V} (hw : Dict.WF i) (hz : (0 : F) ∈ Dict.keys i)
    (hn : ∀ p ∈ Dict.keys i, 0 ≤ p) :
    ∃ ps, sortedKeys i = 0 :: ps ∧ (∀ p ∈ ps, 0 < p) := by
  have hs := sortedKeys_lt hw
  have hz' := (mem_sortedKeys i 0).2 hz
  have hn' : ∀ p ∈ sortedKeys i, 0 ≤ p := fun p hp => hn p ((mem_sortedKeys i p).1 hp)
  cases hk : sortedKeys i with
  | nil => rw [hk] at hz'; simp at hz'
  | cons a ps =>
    rw [hk] at hs hz' hn'
    rw [List.pairwise_cons] at hs
    have ha : a = 0 := by
      rcases List.mem_cons.1 hz' with h | h
      · exact h.symm
      · exact absurd (hs.1 0 h) (not_lt.2 (hn' a (by simp)))
    subst ha
    exact ⟨ps, rfl, hs.1⟩

theorem mem_brightEnts {i : Dict F V} (hw : Dict.WF i) (hz : (0 : F) ∈ Dict.keys i)
    (hn : ∀ p ∈ Dict.keys i, 0 ≤ p) (p : F) (v : V) :
    (p, v) ∈ brightEnts i ↔ p ≠ 0 ∧ Dict.get? i p = some v := by
  obtain ⟨ps, hps, hpos⟩ := sortedKeys_zero hw hz hn
  unfold brightEnts
  rw [mem_entsOf, hps]
  simp only [List.drop_succ_cons, List.drop_zero]
  constructor
  · rintro ⟨h1, h2⟩; exact ⟨(hpos p h1).ne', h2⟩
  · rintro ⟨h1, h2⟩
    refine ⟨?_, h2⟩
    have := (mem_sortedKeys i p).2 (Dict.mem_keys_of_get? h2)
    rw [hps] at this
    rcases List.mem_cons.1 this with h | h
    · exact absurd h h1
    · exact h

theorem bright_brightPts {d : Dict F (Dict F V)} (hw : WF2 d)
    (hg : ∀ t ∈ Dict.keys d, ExpGood d t) (hn : NonNegPhotons d) :
    Bright d (brightPts d (sortedKeys d)) := by
  have hz : ∀ e i, Dict.get? d e = some i → (0 : F) ∈ Dict.keys i := by
    intro e i hi
    obtain ⟨j, hj, hz, -⟩ := hg e (Dict.mem_keys_of_get? hi)
    rw [hi] at hj; cases hj; exact hz
  have hn' : ∀ e i, Dict.get? d e = some i → ∀ p ∈ Dict.keys i, 0 ≤ p := by
    intro e i hi p hp
    obtain ⟨v, hv⟩ := (Dict.has_iff_exists _ _).1 ((Dict.has_iff _ _).2 hp)
    exact hn e p v (by simp [get2, hi, hv])
  constructor
  · intro e p v
    unfold brightPts
    simp only [List.mem_flatMap, brightAt]
    constructor
    · rintro ⟨t, ht, hm⟩
      cases hi : Dict.get? d t with
      | none => rw [hi] at hm; simp at hm
      | some i =>
        rw [hi] at hm
        simp only [List.mem_map] at hm
        obtain ⟨⟨q, w⟩, hq, heq⟩ := hm
        simp only [Prod.mk.injEq] at heq
        obtain ⟨rfl, rfl, rfl⟩ := heq
        have := (mem_brightEnts (hw.2 t i hi) (hz t i hi) (hn' t i hi) q w).1 hq
        exact ⟨this.1, by simp [get2, hi, this.2]⟩
    · rintro ⟨h1, h2⟩
      obtain ⟨i, hi, hp⟩ := Option.bind_eq_some_iff.1 h2
      refine ⟨e, (mem_sortedKeys d e).2 (Dict.mem_keys_of_get? hi), ?_⟩
      rw [hi]
      exact List.mem_map.2 ⟨(p, v), (mem_brightEnts (hw.2 e i hi) (hz e i hi) (hn' e i hi) p v).2
        ⟨h1, hp⟩, rfl⟩
  · unfold brightPts
    rw [List.pairwise_flatMap]
    constructor
    · intro e _
      unfold brightAt
      cases hi : Dict.get? d e with
      | none => simp
      | some i =>
        simp only
        rw [List.pairwise_map]
        exact (entsOf_sorted i _ (List.Pairwise.sublist (List.drop_sublist _ _)
          (sortedKeys_lt (hw.2 e i hi)))).imp fun h => .inr ⟨rfl, h⟩
    · refine (sortedKeys_lt hw.1).imp fun {a b} hab x hx y hy => .inl ?_
      have key : ∀ (c : F) (z : F × F × V), z ∈ brightAt d c → z.1 = c := by
        intro c z hz
        unfold brightAt at hz
        cases hi : Dict.get? d c with
        | none => rw [hi] at hz; simp at hz
        | some i =>
          rw [hi] at hz
          simp only [List.mem_map] at hz
          obtain ⟨_, _, rfl⟩ := hz
          rfl
      rw [key a x hx, key b y hy]
      exact hab

end Data
end Emva
