import Verif.Spec.Compare
import Verif.Lemmas.Xml
import Mathlib.Tactic.Linarith

set_option autoImplicit false
namespace Emva
namespace Xml
open Spec

/-! ### arrays -/

theorem round_fin {b : Bool} {v z : Fl ℝ} {s : ℤ} (h : roundSignificant b v s = .ok z) : ∃ r, z = .fin r := by
  unfold roundSignificant at h
  split_ifs at h with h1 h2
  · exact ⟨0, (Except.ok.inj h).symm⟩
  · cases v with
    | nan => exact absurd h (by simp)
    | inf => exact absurd h (by simp)
    | fin x => exact ⟨_, (Except.ok.inj h).symm⟩

/-- rounding of the elements -/
def RoundsTo (b : Bool) (a : List (Fl ℝ)) (r : List ℝ) : Prop :=
  List.Forall₂ (fun x z => roundSignificant b x 7 = .ok (.fin z)) a r

theorem mapM_round {b : Bool} : ∀ {a a' : List (Fl ℝ)},
    (a.mapM fun v => roundSignificant b v significantDigits) = .ok a' →
    ∃ r : List ℝ, a' = r.map .fin ∧ RoundsTo b a r
  | [], a', h => ⟨[], by cases h; rfl, .nil⟩
  | x :: a, a', h => by
    rw [List.mapM_cons] at h
    cases hx : roundSignificant b x significantDigits with
    | error e => rw [hx] at h; exact absurd h (by simp [bind, Except.bind])
    | ok z =>
      rw [hx] at h
      cases ha : a.mapM fun v => roundSignificant b v significantDigits with
      | error e => rw [ha] at h; exact absurd h (by simp [bind, Except.bind])
      | ok l =>
        rw [ha] at h
        obtain ⟨r, hr⟩ := round_fin hx
        obtain ⟨rs, hrs, hrr⟩ := mapM_round ha
        have h' : z :: l = a' := Except.ok.inj h
        refine ⟨r :: rs, by rw [← h', hr, hrs]; rfl, .cons ?_ hrr⟩
        rw [← hr]; exact hx

theorem mapM_round_ok {b : Bool} {a : List (Fl ℝ)} {r : List ℝ} (h : RoundsTo b a r) :
    (a.mapM fun v => roundSignificant b v significantDigits) = .ok (r.map .fin) := by
  apply mapM_forall₂
  rw [List.forall₂_map_right_iff]
  exact h

theorem roundArray_ok {b : Bool} {a : List (Fl ℝ)} {r : List ℝ} (hne : a ≠ []) (h : RoundsTo b a r) :
    roundArray b a = .ok (r.map .fin) := by
  rw [roundArray, if_neg hne, mapM_round_ok h]

theorem roundArray_inv {b : Bool} {a a' : List (Fl ℝ)} (h : roundArray b a = .ok a') :
    a ≠ [] ∧ ∃ r : List ℝ, a' = r.map .fin ∧ RoundsTo b a r := by
  unfold roundArray at h
  split_ifs at h with hne
  exact ⟨hne, mapM_round h⟩

theorem flAbs_fin (x : ℝ) : flAbs (.fin x) = .fin |x| := by
  unfold flAbs
  by_cases h : x < 0
  · rw [if_pos (show Fl.lt (.fin x) (.fin 0) = true from decide_eq_true h), Fl.fin_sub, zero_sub, abs_of_neg h]
  · rw [if_neg (by rw [Fl.lt_fin, decide_eq_true_eq]; exact h), abs_of_nonneg (not_lt.1 h)]

theorem fmax_fin (x y : ℝ) : Np.fmax (.fin x) (.fin y) = .fin (max x y) := by
  show (if Fl.le (.fin x) (.fin y) = true then Fl.fin y else .fin x) = _
  by_cases h : x ≤ y
  · rw [if_pos (show Fl.le (.fin x) (.fin y) = true from decide_eq_true h), max_eq_right h]
  · rw [if_neg (by rw [Fl.le_fin, decide_eq_true_eq]; exact h), max_eq_left (not_le.1 h).le]

theorem foldl_fmax (l : List ℝ) : ∀ x : ℝ, (l.map Fl.fin).foldl Np.fmax (.fin x) = .fin (l.foldl max x) := by
  induction l with
  | nil => intro x; rfl
  | cons y l ih => intro x; rw [List.map_cons, List.foldl_cons, fmax_fin, ih]; rfl

theorem foldl_max_le (l : List ℝ) : ∀ x c : ℝ, l.foldl max x ≤ c ↔ x ≤ c ∧ ∀ y ∈ l, y ≤ c := by
  induction l with
  | nil => intro x c; simp
  | cons y l ih => intro x c; rw [List.foldl_cons, ih]; simp [and_assoc]

theorem le_foldl_max (l : List ℝ) : ∀ x : ℝ, x ≤ l.foldl max x := by
  induction l with
  | nil => intro x; exact le_refl _
  | cons y l ih => intro x; exact (le_max_left x y).trans (ih _)

/-- the maximal absolute value is zero exactly when all values are -/
theorem amax_abs_zero (d : List ℝ) (hd : d ≠ []) :
    ∃ m, Np.amax ((d.map Fl.fin).map flAbs) = .ok (.fin m) ∧ (m = 0 ↔ ∀ x ∈ d, x = 0) := by
  have e : (d.map Fl.fin).map flAbs = (d.map fun x => |x|).map Fl.fin := by
    rw [List.map_map, List.map_map]
    exact List.map_congr_left fun x _ => flAbs_fin x
  rw [e]
  cases d with
  | nil => exact absurd rfl hd
  | cons x d =>
    refine ⟨(d.map fun x => |x|).foldl max |x|, ?_, ?_⟩
    · rw [List.map_cons, List.map_cons, Np.amax, foldl_fmax]
    · constructor
      · intro h
        obtain ⟨h1, h2⟩ := (foldl_max_le _ _ 0).1 h.le
        intro y hy
        rcases List.mem_cons.1 hy with rfl | hy
        · exact abs_nonpos_iff.1 h1
        · exact abs_nonpos_iff.1 (h2 _ (List.mem_map.2 ⟨y, hy, rfl⟩))
      · intro h
        refine le_antisymm ((foldl_max_le _ _ 0).2 ⟨?_, ?_⟩) ((abs_nonneg x).trans (le_foldl_max _ _))
        · rw [h x (by simp), abs_zero]
        · intro y hy
          obtain ⟨z, hz, rfl⟩ := List.mem_map.1 hy
          rw [h z (by simp [hz]), abs_zero]

theorem zipWith_zero : ∀ (r s : List ℝ), r.length = s.length →
    ((∀ x ∈ List.zipWith (· - ·) r s, x = 0) ↔ r = s)
  | [], [], _ => by simp
  | [], _ :: _, h => by simp at h
  | _ :: _, [], h => by simp at h
  | x :: r, y :: s, h => by
    have ih := zipWith_zero r s (by simpa using h)
    simp only [List.zipWith_cons_cons, List.mem_cons, forall_eq_or_imp, ih, List.cons.injEq, sub_eq_zero]

/-- difference of real arrays -/
def subR (r s : List ℝ) : Option (List ℝ) :=
  if r.length = s.length then some (List.zipWith (· - ·) r s)
  else match r, s with
    | [x], s => some (s.map (x - ·))
    | r, [y] => some (r.map (· - y))
    | _, _ => none

theorem zipWith_fin : ∀ r s : List ℝ, List.zipWith (· - ·) (r.map Fl.fin) (s.map Fl.fin) =
    (List.zipWith (· - ·) r s).map Fl.fin
  | [], _ => by simp
  | _ :: _, [] => by simp
  | x :: r, y :: s => by simp only [List.map_cons, List.zipWith_cons_cons, Fl.fin_sub, zipWith_fin r s]

theorem subArray_fin (r s : List ℝ) : subArray (r.map .fin) (s.map .fin) =
    match subR r s with
    | some d => .ok (d.map .fin)
    | none => .error .valueError := by
  unfold subArray subR
  rw [List.length_map, List.length_map]
  by_cases h : r.length = s.length
  · rw [if_pos h, if_pos h, zipWith_fin]
  · rw [if_neg h, if_neg h]
    match r, s with
    | [], [] => simp at h
    | [], [y] => rfl
    | [], _ :: _ :: _ => rfl
    | [x], s => simp [List.map_map, Function.comp_def]
    | x :: x2 :: r, [] => rfl
    | x :: x2 :: r, [y] => simp [List.map_map, Function.comp_def]
    | x :: x2 :: r, y :: y2 :: s => rfl

theorem subR_zero (r s : List ℝ) (hr : r ≠ []) (hs : s ≠ []) :
    (∃ d, subR r s = some d ∧ d ≠ [] ∧ ∀ x ∈ d, x = 0) ↔
      (r = s ∨ (∃ x, r = [x] ∧ ∀ y ∈ s, x = y) ∨ (∃ y, s = [y] ∧ ∀ x ∈ r, x = y)) := by
  unfold subR
  by_cases h : r.length = s.length
  · rw [if_pos h]
    have hz := zipWith_zero r s h
    constructor
    · rintro ⟨d, hd, -, h0⟩
      rw [Option.some.injEq] at hd
      subst hd
      exact .inl (hz.1 h0)
    · intro hc
      have hrs : r = s := by
        rcases hc with hc | ⟨x, hx, hc⟩ | ⟨y, hy, hc⟩
        · exact hc
        · subst hx
          obtain ⟨y, rfl⟩ : ∃ y, s = [y] := List.length_eq_one_iff.1 (by simpa using h.symm)
          rw [hc y (by simp)]
        · subst hy
          obtain ⟨x, rfl⟩ : ∃ x, r = [x] := List.length_eq_one_iff.1 (by simpa using h)
          rw [hc x (by simp)]
      refine ⟨_, rfl, ?_, hz.2 hrs⟩
      intro he
      have := congrArg List.length he
      rw [List.length_zipWith, h, Nat.min_self] at this
      exact hs (List.length_eq_zero_iff.1 this)
  · rw [if_neg h]
    have hne : r ≠ s := fun e => h (by rw [e])
    match r, s with
    | [], _ => exact absurd rfl hr
    | _ :: _, [] => exact absurd rfl hs
    | [x], y :: s =>
      have hs2 : ¬ ∃ z, y :: s = [z] ∧ ∀ w ∈ [x], w = z := by
        rintro ⟨z, hz, -⟩
        exact h (by rw [hz]; rfl)
      constructor
      · rintro ⟨d, hd, -, h0⟩
        simp only [Option.some.injEq] at hd
        subst hd
        refine .inr (.inl ⟨x, rfl, fun z hz => ?_⟩)
        exact sub_eq_zero.1 (h0 _ (List.mem_map.2 ⟨z, hz, rfl⟩))
      · rintro (hc | ⟨x', hx, hc⟩ | hc)
        · exact absurd hc hne
        · cases hx
          refine ⟨_, rfl, by simp, ?_⟩
          intro w hw
          obtain ⟨z, hz, rfl⟩ := List.mem_map.1 hw
          exact sub_eq_zero.2 (hc z hz)
        · exact absurd hc hs2
    | x :: x2 :: r, [y] =>
      constructor
      · rintro ⟨d, hd, -, h0⟩
        simp only [Option.some.injEq] at hd
        subst hd
        refine .inr (.inr ⟨y, rfl, fun z hz => ?_⟩)
        exact sub_eq_zero.1 (h0 _ (List.mem_map.2 ⟨z, hz, rfl⟩))
      · rintro (hc | ⟨x', hx, hc⟩ | ⟨y', hy, hc⟩)
        · exact absurd hc hne
        · simp at hx
        · cases hy
          refine ⟨_, rfl, by simp, ?_⟩
          intro w hw
          obtain ⟨z, hz, rfl⟩ := List.mem_map.1 hw
          exact sub_eq_zero.2 (hc z hz)
    | x :: x2 :: r, y :: y2 :: s =>
      constructor
      · rintro ⟨d, hd, -⟩
        simp at hd
      · rintro (hc | ⟨x', hx, hc⟩ | ⟨y', hy, hc⟩)
        · exact absurd hc hne
        · simp at hx
        · simp at hy

theorem RoundsTo.same {b : Bool} {x y : Fl ℝ} {r s : ℝ} (h1 : roundSignificant b x 7 = .ok (.fin r))
    (h2 : roundSignificant b y 7 = .ok (.fin s)) : SameRounded b x y ↔ r = s := by
  constructor
  · rintro ⟨z, hx, hy⟩
    rw [h1] at hx
    rw [h2] at hy
    have := (Except.ok.inj hx).trans (Except.ok.inj hy).symm
    cases this; rfl
  · rintro rfl; exact ⟨_, h1, h2⟩

theorem forall₂_same {b : Bool} : ∀ {a a2 : List (Fl ℝ)} {r s : List ℝ}, RoundsTo b a r → RoundsTo b a2 s →
    (List.Forall₂ (SameRounded b) a a2 ↔ r = s) := by
  intro a a2 r s h1
  induction h1 generalizing a2 s with
  | nil =>
    intro h2
    cases h2 with
    | nil => exact ⟨fun _ => rfl, fun _ => .nil⟩
    | cons => exact ⟨fun h => (by cases h), fun h => (by cases h)⟩
  | cons hx _ ih =>
    intro h2
    cases h2 with
    | nil => exact ⟨fun h => (by cases h), fun h => (by cases h)⟩
    | cons hy h2 =>
      rw [List.forall₂_cons, List.cons.injEq, RoundsTo.same hx hy, ih h2]

theorem all_same {b : Bool} {x : Fl ℝ} {r : ℝ} (hx : roundSignificant b x 7 = .ok (.fin r)) :
    ∀ {a : List (Fl ℝ)} {s : List ℝ}, RoundsTo b a s → ((∀ y ∈ a, SameRounded b x y) ↔ ∀ z ∈ s, r = z) := by
  intro a s h
  induction h with
  | nil => simp
  | cons hy _ ih => simp only [List.mem_cons, forall_eq_or_imp, ih, RoundsTo.same hx hy]

theorem same_symm {b : Bool} {x y : Fl ℝ} (h : SameRounded b x y) : SameRounded b y x := by
  obtain ⟨z, h1, h2⟩ := h; exact ⟨z, h2, h1⟩

theorem arraysMatch_symm {b : Bool} {x y : List (Fl ℝ)} (h : ArraysMatch b x y) : ArraysMatch b y x := by
  rcases h with ⟨h1, h2⟩ | ⟨z, hz, h1, h2⟩ | ⟨z, hz, h1, h2⟩
  · refine .inl ⟨?_, h2.flip.imp fun _ _ h => same_symm h⟩
    rintro rfl
    cases h2; exact h1 rfl
  · exact .inr (.inr ⟨z, hz, h1, fun w hw => same_symm (h2 w hw)⟩)
  · exact .inr (.inl ⟨z, hz, h1, fun w hw => same_symm (h2 w hw)⟩)

/-- an element that takes part in a match can be rounded -/
theorem exists_round {b : Bool} {a : List (Fl ℝ)} (h : ∀ x ∈ a, ∃ z, roundSignificant b x 7 = .ok z) :
    ∃ r, RoundsTo b a r := by
  induction a with
  | nil => exact ⟨[], .nil⟩
  | cons x a ih =>
    obtain ⟨r, hr⟩ := ih fun y hy => h y (by simp [hy])
    obtain ⟨z, hz⟩ := h x (by simp)
    obtain ⟨w, rfl⟩ := round_fin hz
    exact ⟨w :: r, .cons hz hr⟩

theorem arraysMatch_rounds {b : Bool} {x y : List (Fl ℝ)} (h : ArraysMatch b x y) :
    x ≠ [] ∧ ∃ r, RoundsTo b x r := by
  rcases h with ⟨h1, h2⟩ | ⟨z, hz, h1, h2⟩ | ⟨z, hz, h1, h2⟩
  · refine ⟨h1, ?_⟩
    clear h1
    induction h2 with
    | nil => exact ⟨[], .nil⟩
    | cons h _ ih =>
      obtain ⟨r, hr⟩ := ih
      obtain ⟨v, hv, -⟩ := h
      obtain ⟨w, rfl⟩ := round_fin hv
      exact ⟨w :: r, .cons hv hr⟩
  · subst hz
    refine ⟨by simp, ?_⟩
    cases y with
    | nil => exact absurd rfl h1
    | cons y l =>
      obtain ⟨v, hv, -⟩ := h2 y (by simp)
      exact exists_round fun w hw => by rw [List.mem_singleton.1 hw]; exact ⟨v, hv⟩
  · exact ⟨h1, exists_round fun w hw => by obtain ⟨v, hv, -⟩ := h2 w hw; exact ⟨v, hv⟩⟩

theorem RoundsTo.ne {b : Bool} {a : List (Fl ℝ)} {r : List ℝ} (h : RoundsTo b a r) (ha : a ≠ []) : r ≠ [] := by
  rintro rfl
  cases h; exact ha rfl

theorem cmpArray_iff (b : Bool) (x y : List (Fl ℝ)) :
    cmpArray b (some (.arr x)) (some (.arr y)) = true ↔ ArraysMatch b x y := by
  rw [cmpArray]
  have key : ∀ r s, x ≠ [] → y ≠ [] → RoundsTo b x r → RoundsTo b y s →
      ((match maxDiff b x y with
        | .ok m => Fl.eqb m (.fin 0)
        | .error _ => false) = true ↔ ArraysMatch b x y) := by
    intro r s hx hy hr hs
    have hmd : maxDiff b x y = (subArray (r.map .fin) (s.map .fin) >>= fun d => Np.amax (d.map flAbs)) := by
      rw [maxDiff, roundArray_ok hx hr, roundArray_ok hy hs]; rfl
    have hiff : ArraysMatch b x y ↔
        (r = s ∨ (∃ x, r = [x] ∧ ∀ y ∈ s, x = y) ∨ (∃ y, s = [y] ∧ ∀ x ∈ r, x = y)) := by
      unfold ArraysMatch
      refine or_congr ?_ (or_congr ?_ ?_)
      · rw [← forall₂_same hr hs]; exact ⟨fun h => h.2, fun h => ⟨hx, h⟩⟩
      · constructor
        · rintro ⟨v, rfl, -, h⟩
          cases hr with
          | cons h1 h2 =>
            cases h2
            exact ⟨_, rfl, (all_same h1 hs).1 h⟩
        · rintro ⟨v, rfl, h⟩
          cases hr with
          | cons h1 h2 =>
            cases h2
            exact ⟨_, rfl, hy, (all_same h1 hs).2 h⟩
      · constructor
        · rintro ⟨v, rfl, -, h⟩
          cases hs with
          | cons h1 h2 =>
            cases h2
            exact ⟨_, rfl, fun z hz => ((all_same h1 hr).1 (fun w hw => same_symm (h w hw)) z hz).symm⟩
        · rintro ⟨v, rfl, h⟩
          cases hs with
          | cons h1 h2 =>
            cases h2
            exact ⟨_, rfl, hx, fun z hz => same_symm ((all_same h1 hr).2 (fun w hw => (h w hw).symm) z hz)⟩
    rw [hiff, ← subR_zero r s (hr.ne hx) (hs.ne hy), hmd, subArray_fin]
    cases hd : subR r s with
    | none =>
      constructor
      · intro h; exact absurd h (by simp [bind, Except.bind])
      · rintro ⟨d, h, -⟩; cases h
    | some d =>
      show (match Np.amax ((d.map Fl.fin).map flAbs) with
        | .ok m => Fl.eqb m (.fin 0)
        | .error _ => false) = true ↔ _
      by_cases hne : d = []
      · subst hne
        constructor
        · intro h; exact absurd h (by simp [Np.amax])
        · rintro ⟨d', h, h1, -⟩
          cases h; exact absurd rfl h1
      · obtain ⟨m, hm, hz⟩ := amax_abs_zero d hne
        rw [hm]
        show decide (m = 0) = true ↔ _
        rw [decide_eq_true_eq, hz]
        constructor
        · intro h; exact ⟨d, rfl, hne, h⟩
        · rintro ⟨d', h, -, h1⟩
          cases h; exact h1
  constructor
  · intro h
    cases hm : maxDiff b x y with
    | error e => rw [hm] at h; exact absurd h (by simp)
    | ok m =>
      have hm' := hm
      unfold maxDiff at hm'
      cases h1 : roundArray b x with
      | error e => rw [h1] at hm'; exact absurd hm' (by simp [bind, Except.bind])
      | ok a' =>
        rw [h1] at hm'
        cases h2 : roundArray b y with
        | error e => rw [h2] at hm'; exact absurd hm' (by simp [bind, Except.bind])
        | ok b' =>
          obtain ⟨hx, r, -, hr⟩ := roundArray_inv h1
          obtain ⟨hy, s, -, hs⟩ := roundArray_inv h2
          exact (key r s hx hy hr hs).1 h
  · intro h
    obtain ⟨hx, r, hr⟩ := arraysMatch_rounds h
    obtain ⟨hy, s, hs⟩ := arraysMatch_rounds (arraysMatch_symm h)
    exact (key r s hx hy hr hs).2 h

theorem cmpValue_iff (b : Bool) (x y : Fl ℝ) : cmpValue b (.num x) (.num y) = true ↔ SameRounded b x y := by
  rw [cmpValue]
  show (match roundSignificant b x 7, roundSignificant b y 7 with
    | .ok a, .ok b => Fl.eqb (a - b) (.fin 0)
    | _, _ => false) = true ↔ _
  cases h1 : roundSignificant b x 7 with
  | error e => exact ⟨fun h => by simp at h, fun ⟨z, hz, _⟩ => by rw [h1] at hz; cases hz⟩
  | ok u =>
    cases h2 : roundSignificant b y 7 with
    | error e => exact ⟨fun h => by simp at h, fun ⟨z, _, hz⟩ => by rw [h2] at hz; cases hz⟩
    | ok v =>
      obtain ⟨r, rfl⟩ := round_fin h1
      obtain ⟨s, rfl⟩ := round_fin h2
      rw [RoundsTo.same h1 h2]
      show Fl.eqb (Fl.fin r - Fl.fin s) (Fl.fin 0) = true ↔ _
      rw [Fl.fin_sub]
      show decide (r - s = 0) = true ↔ _
      rw [decide_eq_true_eq, sub_eq_zero]

theorem cmpLoop_eq (b : Bool) (a1 a2 : List (Str × PyVal ℝ)) : ∀ (ks : List Str) (r : Option Bool), ks ≠ [] →
    cmpLoop b a1 a2 r ks = some (ks.all fun k => cmpArray b (Dict.get? a1 k) (Dict.get? a2 k)) := by
  intro ks
  induction ks with
  | nil => intro r h; exact absurd rfl h
  | cons k ks ih =>
    intro r _
    rw [cmpLoop, List.all_cons]
    cases hc : cmpArray b (Dict.get? a1 k) (Dict.get? a2 k) with
    | false => rfl
    | true =>
      rw [if_pos rfl, Bool.true_and]
      by_cases hk : ks = []
      · subst hk; rfl
      · exact ih _ hk

theorem keysDiffer_false (a1 a2 : List (Str × PyVal ℝ)) :
    keysDiffer a1 a2 = false ↔ ∀ k, k ∈ Dict.keys a1 ↔ k ∈ Dict.keys a2 := by
  simp only [keysDiffer, Bool.not_eq_false', Bool.and_eq_true, List.all_eq_true, decide_eq_true_eq]
  constructor
  · rintro ⟨h1, h2⟩ k; exact ⟨h1 k, h2 k⟩
  · intro h; exact ⟨fun k => (h k).1, fun k => (h k).2⟩

/-! ### sorted unions -/

theorem sortedUnion_spec (a b : List Str) : IsSortedUnion a b (sortedUnion a b) := by
  have htrans : ∀ x y z : Str, decide (x ≤ y) = true → decide (y ≤ z) = true → decide (x ≤ z) = true := by
    intro x y z h1 h2
    rw [decide_eq_true_eq] at *
    exact le_trans h1 h2
  have htot : ∀ x y : Str, (decide (x ≤ y) || decide (y ≤ x)) = true := by
    intro x y
    rw [Bool.or_eq_true, decide_eq_true_eq, decide_eq_true_eq]
    exact le_total x y
  have hp : (sortedUnion a b).Perm (a ++ b).dedup := List.mergeSort_perm _ _
  refine ⟨?_, fun x => ?_⟩
  · have h1 := List.pairwise_mergeSort (le := fun x y : Str => decide (x ≤ y)) htrans htot (a ++ b).dedup
    have h2 : (sortedUnion a b).Nodup := hp.nodup_iff.2 (List.nodup_dedup _)
    exact (h1.and h2).imp fun h => lt_of_le_of_ne (of_decide_eq_true h.1) h.2
  · rw [hp.mem_iff, List.mem_dedup, List.mem_append]

theorem sortedUnion_unique {a b l l' : List Str} (h : IsSortedUnion a b l) (h' : IsSortedUnion a b l') : l = l' := by
  have hperm : l.Perm l' := by
    rw [List.perm_ext_iff_of_nodup (h.1.imp ne_of_lt) (h'.1.imp ne_of_lt)]
    intro x; rw [h.2, h'.2]
  exact hperm.eq_of_pairwise (fun _ _ _ _ h1 h2 => absurd h1 (lt_asymm h2)) h.1 h'.1

theorem sortedUnion_symm {a b l : List Str} (h : IsSortedUnion a b l) : IsSortedUnion b a l :=
  ⟨h.1, fun x => by rw [h.2, or_comm]⟩

end Xml
end Emva
