import Verif.Lemmas.Compare
import Verif.Props.C43
import Verif.Props.C45

/-!
C44: the verdicts of `compare_xml`.
-/
set_option autoImplicit false
namespace Emva
open Xml Spec

namespace Xml
variable {env : Env ℝ}

theorem bind_ok_inv {α β : Type} {x : Except PyErr α} {f : α → Except PyErr β} {r : β} (h : x >>= f = .ok r) :
    ∃ a, x = .ok a ∧ f a = .ok r := by
  cases x with
  | error e => cases h
  | ok a => exact ⟨a, rfl, h⟩

/-! ### what `xml_to_dict` returns -/

theorem build_ne {V : Type} (l : List (Str × V)) (h : l ≠ []) : build l ≠ [] := by
  have key : ∀ (l d : List (Str × V)), d ≠ [] → l.foldl (fun d kv => Dict.set d kv.1 kv.2) d ≠ [] := by
    intro l
    induction l with
    | nil => intro d h; exact h
    | cons p l ih =>
      intro d hd
      refine ih _ ?_
      intro he
      have := Dict.get?_set_self d p.1 p.2
      rw [show Dict.set d p.1 p.2 = [] from he] at this
      cases this
  cases l with
  | nil => exact absurd rfl h
  | cons p l =>
    refine key l _ ?_
    intro he
    have := Dict.get?_set_self ([] : List (Str × V)) p.1 p.2
    rw [show Dict.set ([] : List (Str × V)) p.1 p.2 = [] from he] at this
    cases this

theorem build_wf {V : Type} (l : List (Str × V)) : Dict.WF (build l) := by
  have key : ∀ (l d : List (Str × V)), Dict.WF d → Dict.WF (l.foldl (fun d kv => Dict.set d kv.1 kv.2) d) := by
    intro l
    induction l with
    | nil => intro d h; exact h
    | cons p l ih => intro d hd; exact ih _ (hd.set _ _)
  exact key l [] Dict.wf_nil

theorem mem_set {V : Type} {d : List (Str × V)} {k : Str} {v : V} {kv : Str × V} (h : kv ∈ Dict.set d k v) :
    kv ∈ d ∨ kv = (k, v) := by
  induction d with
  | nil =>
    rw [Dict.set, List.mem_singleton] at h
    exact .inr h
  | cons p d ih =>
    obtain ⟨a, b⟩ := p
    rw [Dict.set] at h
    split_ifs at h with hk
    · rcases List.mem_cons.1 h with rfl | h
      · subst hk; exact .inr rfl
      · exact .inl (by simp [h])
    · rcases List.mem_cons.1 h with rfl | h
      · exact .inl (by simp)
      · rcases ih h with h | h
        · exact .inl (by simp [h])
        · exact .inr h

theorem mem_build {V : Type} {l : List (Str × V)} {kv : Str × V} (h : kv ∈ build l) : kv ∈ l := by
  have key : ∀ (l d : List (Str × V)), kv ∈ l.foldl (fun d kv => Dict.set d kv.1 kv.2) d → kv ∈ d ∨ kv ∈ l := by
    intro l
    induction l with
    | nil => intro d h; exact .inl h
    | cons p l ih =>
      intro d hd
      rcases ih _ hd with h | h
      · rcases mem_set h with h | h
        · exact .inl h
        · exact .inr (by rw [h]; simp)
      · exact .inr (by simp [h])
  rcases key l [] h with h | h
  · cases h
  · exact h

/-- a value read from an element: if it is a dictionary, it is not empty, has distinct keys and contains
values read from elements -/
def FromElem (env : Env ℝ) (v : PyVal ℝ) : Prop := ∃ e : Elem, v = elemVal env e

theorem fromElem_dict {d : List (Str × PyVal ℝ)} (h : FromElem env (.dict d)) :
    d ≠ [] ∧ Dict.WF d ∧ ∀ kv ∈ d, FromElem env kv.2 := by
  obtain ⟨⟨t, x, l⟩, h⟩ := h
  cases l with
  | nil => cases x <;> simp [elemVal, textVal] at h
  | cons c cs =>
    rw [elemVal_node (by simp)] at h
    cases h
    refine ⟨build_ne _ (by simp), build_wf _, ?_⟩
    intro kv hkv
    obtain ⟨e, -, rfl⟩ := List.mem_map.1 (mem_build hkv)
    exact ⟨e, rfl⟩

theorem fromElem_cases {v : PyVal ℝ} (h : FromElem env v) : v = .none ∨ (∃ s, v = .str s) ∨ ∃ d, v = .dict d := by
  obtain ⟨⟨t, x, l⟩, rfl⟩ := h
  cases l with
  | nil => cases x <;> simp [elemVal, textVal]
  | cons c cs => rw [elemVal_node (by simp)]; simp

/-- converting the values of a dictionary keeps the keys -/
theorem mapM_values {f : PyVal ℝ → Except PyErr (PyVal ℝ)} : ∀ {d r : List (Str × PyVal ℝ)},
    (d.mapM fun kv => do
      let v ← f kv.2
      .ok (kv.1, v)) = .ok r → List.Forall₂ (fun a b => a.1 = b.1 ∧ f a.2 = .ok b.2) d r
  | [], r, h => by cases h; exact .nil
  | p :: d, r, h => by
    rw [List.mapM_cons] at h
    cases hp : f p.2 with
    | error e => rw [hp] at h; exact absurd h (by simp [bind, Except.bind])
    | ok v =>
      rw [hp, ok_bind, ok_bind] at h
      cases hd : d.mapM fun kv => do
          let v ← f kv.2
          Except.ok (kv.1, v) with
      | error e => rw [hd] at h; exact absurd h (by simp [bind, Except.bind])
      | ok r' =>
        rw [hd] at h
        have h' : (p.1, v) :: r' = r := Except.ok.inj h
        subst h'
        exact .cons ⟨rfl, hp⟩ (mapM_values hd)

theorem forall₂_keys {R : Str × PyVal ℝ → Str × PyVal ℝ → Prop} {d r : List (Str × PyVal ℝ)}
    (h : List.Forall₂ (fun a b => a.1 = b.1 ∧ R a b) d r) : Dict.keys d = Dict.keys r := by
  induction h with
  | nil => rfl
  | cons h _ ih => exact congrArg₂ List.cons h.1 ih

theorem forall₂_mem {α β : Type} {R : α → β → Prop} {l : List α} {r : List β} (h : List.Forall₂ R l r) :
    ∀ b ∈ r, ∃ a ∈ l, R a b := by
  induction h with
  | nil => intro b hb; cases hb
  | @cons a b _ _ hab _ ih =>
    intro c hc
    rcases List.mem_cons.1 hc with rfl | hc
    · exact ⟨a, by simp, hab⟩
    · obtain ⟨a', h1, h2⟩ := ih c hc
      exact ⟨a', by simp [h1], h2⟩

theorem convArray_arr {v w : PyVal ℝ} (h : convArray env v = .ok w) : ∃ a, w = .arr a := by
  cases v with
  | str s =>
    obtain ⟨xs, -, h⟩ := bind_ok_inv h
    exact ⟨xs, (Except.ok.inj h).symm⟩
  | none => cases h
  | num => cases h
  | arr => cases h
  | dict => cases h

theorem convValue_out {v w : PyVal ℝ} (h : convValue env v = .ok w) : w = .none ∨ ∃ x, w = .num x := by
  cases v with
  | none => cases h; exact .inl rfl
  | str s =>
    rw [convValue] at h
    split_ifs at h with hs
    · cases h; exact .inl rfl
    · cases hf : env.float (Py.replaceChar ',' '.' s) with
      | none => rw [hf] at h; cases h
      | some x => rw [hf] at h; cases h; exact .inr ⟨x, rfl⟩
  | num => cases h
  | arr => cases h
  | dict => cases h

theorem convEntry_read {v w : PyVal ℝ} (hv : FromElem env v) (h : convEntry env v = .ok w) :
    ∃ e, w = .dict e ∧ EntryRead e := by
  rcases fromElem_cases hv with rfl | ⟨s, rfl⟩ | ⟨d, rfl⟩
  · cases h
  · cases h
  · obtain ⟨-, hwf, hel⟩ := fromElem_dict hv
    rw [convEntry] at h
    cases hd : Dict.get? d dataKey with
    | some x =>
      rw [hd] at h
      have hx : FromElem env x := hel _ (Dict.get?_mem hd)
      cases x with
      | dict dd =>
        dsimp only at h
        obtain ⟨hne, hwd, -⟩ := fromElem_dict hx
        cases hc : convData env dd with
        | error e => rw [hc] at h; exact absurd h (by simp [bind, Except.bind])
        | ok dd' =>
          rw [hc, ok_bind] at h
          have hf := mapM_values hc
          have hk := forall₂_keys (R := fun a b => _ = _) hf
          refine ⟨_, (Except.ok.inj h).symm, .inl ⟨dd', Dict.get?_set_self _ _ _, ?_, ?_, ?_⟩⟩
          · rintro rfl
            cases hf; exact hne rfl
          · unfold Dict.WF at *
            rw [← hk]; exact hwd
          · intro kv hkv
            obtain ⟨a, -, h1, h2⟩ := forall₂_mem hf kv hkv
            exact convArray_arr h2
      | none => cases h
      | num => cases h
      | str => cases h
      | arr => cases h
    | none =>
      rw [hd] at h
      dsimp only at h
      cases hval : Dict.get? d valueKey with
      | none => rw [hval] at h; cases h
      | some x =>
        rw [hval] at h
        dsimp only at h
        cases hc : convValue env x with
        | error e => rw [hc] at h; exact absurd h (by simp [bind, Except.bind])
        | ok x' =>
          rw [hc, ok_bind] at h
          refine ⟨_, (Except.ok.inj h).symm, .inr ⟨?_, x', Dict.get?_set_self _ _ _, convValue_out hc⟩⟩
          rw [Dict.get?_set_ne _ _ dataKey_ne.symm]; exact hd

theorem xmlToDict_readable {x : Option Elem} {f : List (Str × PyVal ℝ)} (h : xmlToDict env x = .ok (some f)) :
    Readable f := by
  cases x with
  | none => cases h
  | some r =>
    obtain ⟨t, u, ch⟩ := r
    rw [xmlToDict] at h
    cases hm : (elementToDict env [] ch).mapM fun kv => do
        let v ← convSection env kv.2
        Except.ok (kv.1, v) with
    | error e => rw [hm] at h; exact absurd h (by simp [bind, Except.bind])
    | ok d =>
      rw [hm, ok_bind] at h
      have hfd : d = f := by cases h; rfl
      subst hfd
      have hf := mapM_values hm
      have hk := forall₂_keys (R := fun a b => _ = _) hf
      rw [elementToDict_build] at hf hk
      refine ⟨?_, ?_⟩
      · unfold Dict.WF
        rw [← hk]; exact build_wf _
      · intro cv hcv
        obtain ⟨a, ha, h1, h2⟩ := forall₂_mem hf cv hcv
        have hfe : FromElem env a.2 := by
          obtain ⟨e, -, rfl⟩ := List.mem_map.1 (mem_build ha)
          exact ⟨e, rfl⟩
        rcases fromElem_cases hfe with he | ⟨s, he⟩ | ⟨ms, he⟩
        · rw [he] at h2; cases h2
        · rw [he] at h2; cases h2
        · rw [he] at h2 hfe
          obtain ⟨-, hwm, hem⟩ := fromElem_dict hfe
          rw [convSection] at h2
          cases hms : ms.mapM fun kv => do
              let v ← convEntry env kv.2
              Except.ok (kv.1, v) with
          | error e => rw [hms] at h2; exact absurd h2 (by simp [bind, Except.bind])
          | ok ms' =>
            rw [hms, ok_bind] at h2
            have hfm := mapM_values hms
            refine ⟨ms', (Except.ok.inj h2).symm, ?_, ?_⟩
            · have := forall₂_keys (R := fun a b => _ = _) hfm
              unfold Dict.WF at *
              rw [← this]; exact hwm
            · intro mv hmv
              obtain ⟨b, hb, -, h4⟩ := forall₂_mem hfm mv hmv
              exact convEntry_read (hem b hb) h4

/-! ### one attribute -/

/-- the dictionary of an attribute as a value -/
def asVal : Option (List (Str × PyVal ℝ)) → Option (PyVal ℝ)
  | some e => some (.dict e)
  | none => none

theorem isNone_iff (v : PyVal ℝ) : isNone v = true ↔ v = .none := by
  cases v <;> simp [isNone]

theorem getOr_some (e : List (Str × PyVal ℝ)) (k : Str) : getOr (asVal (some e)) k = (Dict.get? e k).getD .none := rfl
theorem getOr_none (k : Str) : getOr (asVal none) k = .none := rfl

theorem getD_none_iff (o : Option (PyVal ℝ)) : o.getD .none = .none ↔ o ∈ [none, some .none] := by
  cases o <;> simp

theorem not_none_mem {o : Option (PyVal ℝ)} {v : PyVal ℝ} (h : o.getD .none = v) (hv : v ≠ .none) : o = some v := by
  cases o with
  | none => exact absurd h.symm hv
  | some w => rw [← h]; rfl

theorem cmpMethod_spec (b : Bool) (m1 m2 : Option (List (Str × PyVal ℝ))) (r : Option Bool)
    (h1 : ∀ e, m1 = some e → EntryRead e ∧ ∀ v, Dict.get? e valueKey = some v → isDict v = false)
    (h2 : ∀ e, m2 = some e → EntryRead e ∧ ∀ v, Dict.get? e valueKey = some v → isDict v = false) :
    ∃ t1 t2 ok, cmpMethod b (asVal m1) (asVal m2) r = .ok (t1, t2, some ok) ∧ (ok = true ↔ Match b m1 m2) := by
  rw [cmpMethod]
  have nodict : ∀ m : Option (List (Str × PyVal ℝ)), (∀ e, m = some e → EntryRead e ∧ ∀ v, Dict.get? e valueKey = some v → isDict v = false) →
      isDict (getOr (asVal m) valueKey) = false := by
    intro m hm
    cases m with
    | none => rfl
    | some e =>
      rw [getOr_some]
      cases hg : Dict.get? e valueKey with
      | none => rfl
      | some v => exact (hm e rfl).2 v hg
  have dat : ∀ m : Option (List (Str × PyVal ℝ)), (∀ e, m = some e → EntryRead e ∧ ∀ v, Dict.get? e valueKey = some v → isDict v = false) →
      getOr (asVal m) dataKey ≠ .none → ∃ e dd, m = some e ∧ Dict.get? e dataKey = some (.dict dd) ∧
        getOr (asVal m) dataKey = .dict dd ∧ dd ≠ [] ∧ Dict.WF dd ∧ ∀ kv ∈ dd, ∃ a, kv.2 = .arr a := by
    intro m hm hne
    cases m with
    | none => exact absurd rfl hne
    | some e =>
      rw [getOr_some] at hne ⊢
      rcases (hm e rfl).1 with ⟨dd, hd, h3, h4, h5⟩ | ⟨hd, -⟩
      · exact ⟨e, dd, rfl, hd, by rw [hd]; rfl, h3, h4, h5⟩
      · rw [hd] at hne; exact absurd rfl hne
  by_cases hv : isNone (getOr (asVal m1) valueKey) = false ∧ isNone (getOr (asVal m2) valueKey) = false
  · rw [if_pos hv, nodict m1 h1, nodict m2 h2]
    refine ⟨_, _, _, rfl, ?_⟩
    obtain ⟨hv1, hv2⟩ := hv
    cases m1 with
    | none => exact absurd hv1 (by simp [getOr_none, isNone])
    | some e1 =>
      cases m2 with
      | none => exact absurd hv2 (by simp [getOr_none, isNone])
      | some e2 =>
        rw [getOr_some] at hv1 hv2
        rw [getOr_some, getOr_some]
        have n1 : ¬ Dict.get? e1 valueKey ∈ [none, some .none] := by
          rw [← getD_none_iff, ← isNone_iff, hv1]; simp
        have n2 : ¬ Dict.get? e2 valueKey ∈ [none, some .none] := by
          rw [← getD_none_iff, ← isNone_iff, hv2]; simp
        constructor
        · intro h
          cases hx : (Dict.get? e1 valueKey).getD .none with
          | num x =>
            cases hy : (Dict.get? e2 valueKey).getD .none with
            | num y =>
              rw [hx, hy] at h
              exact ⟨e1, e2, rfl, rfl, .inl ⟨x, y, not_none_mem hx (by simp), not_none_mem hy (by simp),
                (cmpValue_iff b x y).1 h⟩⟩
            | none => rw [hx, hy] at h; cases h
            | str => rw [hx, hy] at h; cases h
            | arr => rw [hx, hy] at h; cases h
            | dict => rw [hx, hy] at h; cases h
          | none => rw [hx] at h; cases h
          | str => rw [hx] at h; cases h
          | arr => rw [hx] at h; cases h
          | dict => rw [hx] at h; cases h
        · rintro ⟨e1', e2', h3, h4, ⟨x, y, h5, h6, h7⟩ | ⟨h5, -⟩⟩
          · cases h3; cases h4
            rw [h5, h6]
            exact (cmpValue_iff b x y).2 h7
          · cases h3; cases h4
            rcases h5 with h5 | h5
            · exact absurd h5 n1
            · exact absurd h5 n2
  · rw [if_neg hv]
    have hnum : ∀ e1 e2, m1 = some e1 → m2 = some e2 →
        (Dict.get? e1 valueKey ∈ [none, some .none] ∨ Dict.get? e2 valueKey ∈ [none, some .none]) := by
      rintro e1 e2 rfl rfl
      rw [getOr_some, getOr_some, not_and_or, Bool.not_eq_false, Bool.not_eq_false, isNone_iff, isNone_iff,
        getD_none_iff, getD_none_iff] at hv
      exact hv
    by_cases ha : isNone (getOr (asVal m1) dataKey) = false ∧ isNone (getOr (asVal m2) dataKey) = false
    · rw [if_pos ha]
      obtain ⟨e1, d1, rfl, g1, q1, ne1, w1, ar1⟩ := dat m1 h1 (by rw [Ne, ← isNone_iff, ha.1]; simp)
      obtain ⟨e2, d2, rfl, g2, q2, ne2, w2, ar2⟩ := dat m2 h2 (by rw [Ne, ← isNone_iff, ha.2]; simp)
      rw [q1, q2]
      dsimp only
      have hM : Match b (some e1) (some e2) ↔ (∀ k, k ∈ Dict.keys d1 ↔ k ∈ Dict.keys d2) ∧
          ∀ k x y, Dict.get? d1 k = some (.arr x) → Dict.get? d2 k = some (.arr y) → ArraysMatch b x y := by
        constructor
        · rintro ⟨e1', e2', h3, h4, ⟨x, y, h5, h6, -⟩ | ⟨-, d1', d2', h5, h6, h7⟩⟩
          · cases h3; cases h4
            have := hnum e1 e2 rfl rfl
            rw [h5, h6] at this
            simp at this
          · cases h3; cases h4
            rw [g1] at h5; rw [g2] at h6
            cases h5; cases h6
            exact h7
        · intro h
          exact ⟨e1, e2, rfl, rfl, .inr ⟨hnum e1 e2 rfl rfl, d1, d2, g1, g2, h⟩⟩
      by_cases hk : keysDiffer d1 d2 = false
      · rw [if_neg (by rw [hk]; simp), cmpLoop_eq b d1 d2 _ r (by
          cases d1 with
          | nil => exact absurd rfl ne1
          | cons p d => simp [Dict.keys])]
        refine ⟨_, _, _, rfl, ?_⟩
        have hk' := (keysDiffer_false d1 d2).1 hk
        rw [hM, List.all_eq_true]
        constructor
        · intro h
          refine ⟨hk', fun k x y hx hy => ?_⟩
          have := h k (Dict.mem_keys_of_get? hx)
          rw [hx, hy] at this
          exact (cmpArray_iff b x y).1 this
        · rintro ⟨-, h⟩ k hkm
          obtain ⟨v, hv1⟩ := (Dict.has_iff_exists d1 k).1 ((Dict.has_iff d1 k).2 hkm)
          obtain ⟨w, hv2⟩ := (Dict.has_iff_exists d2 k).1 ((Dict.has_iff d2 k).2 ((hk' k).1 hkm))
          obtain ⟨x, hx⟩ := ar1 _ (Dict.get?_mem hv1)
          obtain ⟨y, hy⟩ := ar2 _ (Dict.get?_mem hv2)
          dsimp only at hx hy
          subst hx; subst hy
          rw [hv1, hv2]
          exact (cmpArray_iff b x y).2 (h k x y hv1 hv2)
      · rw [if_pos (by simpa using hk)]
        refine ⟨_, _, _, rfl, ?_⟩
        rw [hM]
        constructor
        · intro h; cases h
        · rintro ⟨h, -⟩
          exact absurd ((keysDiffer_false d1 d2).2 h) hk
    · rw [if_neg ha]
      refine ⟨_, _, _, rfl, ?_⟩
      constructor
      · intro h; cases h
      · rintro ⟨e1, e2, rfl, rfl, ⟨x, y, h5, h6, -⟩ | ⟨-, d1, d2, h5, h6, -⟩⟩
        · have := hnum e1 e2 rfl rfl
          rw [h5, h6] at this
          simp at this
        · rw [getOr_some, getOr_some, h5, h6] at ha
          exact absurd ⟨rfl, rfl⟩ ha

/-! ### the loops -/

theorem cmpMethods_spec (b : Bool) (d1 d2 : List (Str × PyVal ℝ)) (P : Str → Prop)
    (h : ∀ m r, ∃ t1 t2 ok, cmpMethod b (Dict.get? d1 m) (Dict.get? d2 m) r = .ok (t1, t2, some ok) ∧
      (ok = true ↔ P m)) : ∀ (ms : List Str) (r : Option Bool),
    ∃ rows r', cmpMethods b d1 d2 ms r = .ok (rows, r') ∧
      List.Forall₂ (fun m row => ∃ t1 t2 ok, row = .entry m t1 t2 ok ∧ (ok = true ↔ P m)) ms rows := by
  intro ms
  induction ms with
  | nil => intro r; exact ⟨[], r, rfl, .nil⟩
  | cons m ms ih =>
    intro r
    obtain ⟨t1, t2, ok, he, hok⟩ := h m r
    obtain ⟨rows, r', hr, hrows⟩ := ih (some ok)
    refine ⟨.entry m t1 t2 ok :: rows, r', ?_, .cons ⟨t1, t2, ok, rfl, hok⟩ hrows⟩
    rw [cmpMethods, he, ok_bind]
    dsimp only
    rw [hr]; rfl

theorem readable_get {f : List (Str × PyVal ℝ)} (hf : Readable f) {c : Str} {v : PyVal ℝ}
    (h : Dict.get? f c = some v) : ∃ d, v = .dict d ∧ Dict.WF d ∧
      ∀ m w, Dict.get? d m = some w → ∃ e, w = .dict e ∧ EntryRead e := by
  obtain ⟨d, h1, h2, h3⟩ := hf.2 _ (Dict.get?_mem h)
  exact ⟨d, h1, h2, fun m w hm => h3 _ (Dict.get?_mem hm)⟩

theorem asVal_entryOf {f d : List (Str × PyVal ℝ)} {c : Str} (hf : Readable f) (h : Dict.get? f c = some (.dict d))
    (m : Str) : Dict.get? d m = asVal (entryOf f c m) := by
  obtain ⟨d', hd, -, he⟩ := readable_get hf h
  cases hd
  unfold entryOf
  rw [h]
  dsimp only
  cases hm : Dict.get? d m with
  | none => rfl
  | some w =>
    obtain ⟨e, rfl, -⟩ := he m w hm
    rfl

theorem entryOf_read {f : List (Str × PyVal ℝ)} (hf : Readable f) (hn : NoNestedValue f) (c m : Str)
    (e : List (Str × PyVal ℝ)) (h : entryOf f c m = some e) :
    EntryRead e ∧ ∀ v, Dict.get? e valueKey = some v → isDict v = false := by
  refine ⟨?_, fun v hv => hn c m e v h hv⟩
  unfold entryOf at h
  cases hc : Dict.get? f c with
  | none => rw [hc] at h; cases h
  | some v =>
    obtain ⟨d, rfl, -, hd⟩ := readable_get hf hc
    rw [hc] at h
    dsimp only at h
    cases hm : Dict.get? d m with
    | none => rw [hm] at h; cases h
    | some w =>
      obtain ⟨e', rfl, he⟩ := hd m w hm
      rw [hm] at h
      cases h
      exact he

theorem cmpCategories_spec (b : Bool) (f1 f2 : List (Str × PyVal ℝ)) (h1 : Readable f1) (h2 : Readable f2)
    (n1 : NoNestedValue f1) (n2 : NoNestedValue f2) : ∀ (cs : List Str) (r : Option Bool),
    ∃ parts, cmpCategories b f1 f2 cs r = .ok parts.flatten ∧
      List.Forall₂ (IsCategory b f1 f2) cs parts := by
  intro cs
  induction cs with
  | nil => intro r; exact ⟨[], rfl, .nil⟩
  | cons c cs ih =>
    intro r
    rw [cmpCategories]
    by_cases hc : c ∈ Dict.keys f1 ∧ c ∈ Dict.keys f2
    · have hb : (Dict.has f1 c && Dict.has f2 c) = true := by
        rw [Bool.and_eq_true, Dict.has_iff, Dict.has_iff]; exact hc
      rw [if_pos hb]
      obtain ⟨v1, g1⟩ := (Dict.has_iff_exists f1 c).1 ((Dict.has_iff f1 c).2 hc.1)
      obtain ⟨v2, g2⟩ := (Dict.has_iff_exists f2 c).1 ((Dict.has_iff f2 c).2 hc.2)
      obtain ⟨d1, rfl, -, -⟩ := readable_get h1 g1
      obtain ⟨d2, rfl, -, -⟩ := readable_get h2 g2
      rw [g1, g2]
      have hsp := cmpMethods_spec b d1 d2 (fun m => Match b (entryOf f1 c m) (entryOf f2 c m)) (fun m r => by
        rw [asVal_entryOf h1 g1 m, asVal_entryOf h2 g2 m]
        exact cmpMethod_spec b _ _ r (entryOf_read h1 n1 c m) (entryOf_read h2 n2 c m))
        (sortedUnion (Dict.keys d1) (Dict.keys d2)) r
      obtain ⟨rows, r', hr, hrows⟩ := hsp
      obtain ⟨parts, hp, hparts⟩ := ih r'
      refine ⟨(.category c :: rows ++ [.blank]) :: parts, ?_, .cons (.inl ⟨hc.1, hc.2, rows, rfl, _, ?_, hrows⟩) hparts⟩
      · show (cmpMethods b d1 d2 (sortedUnion (Dict.keys d1) (Dict.keys d2)) r >>= _) = _
        rw [hr, ok_bind]
        dsimp only
        rw [hp, ok_bind]
        simp
      · rw [show methodsOf f1 c = Dict.keys d1 by rw [methodsOf, g1],
          show methodsOf f2 c = Dict.keys d2 by rw [methodsOf, g2]]
        exact sortedUnion_spec _ _
    · have hb : ¬(Dict.has f1 c && Dict.has f2 c) = true := by
        rw [Bool.and_eq_true, Dict.has_iff, Dict.has_iff]; exact hc
      rw [if_neg hb]
      obtain ⟨parts, hp, hparts⟩ := ih r
      have e1 : Dict.has f1 c = decide (c ∈ Dict.keys f1) := by
        rw [Bool.eq_iff_iff, Dict.has_iff, decide_eq_true_eq]
      have e2 : Dict.has f2 c = decide (c ∈ Dict.keys f2) := by
        rw [Bool.eq_iff_iff, Dict.has_iff, decide_eq_true_eq]
      refine ⟨_ :: parts, ?_, .cons (.inr ⟨hc, rfl⟩) hparts⟩
      rw [hp, ok_bind, e1, e2]; rfl

end Xml

/-- C44: the report on two readable files: for every category and every attribute of either file, in
increasing order, one verdict, which is OK exactly when the attribute is present in both files with
values that round to the same number, or with arrays under the same keys that match after rounding. -/
theorem C44_report (env : Env ℝ) (b : Bool) (x1 x2 : Option Elem) (f1 f2 : List (Str × PyVal ℝ))
    (h1 : xmlToDict env x1 = .ok (some f1)) (h2 : xmlToDict env x2 = .ok (some f2))
    (n1 : NoNestedValue f1) (n2 : NoNestedValue f2) :
    ∃ rows, compareXml b (some f1) (some f2) = .ok rows ∧ IsReport b f1 f2 rows := by
  obtain ⟨parts, hp, hparts⟩ := cmpCategories_spec b f1 f2 (xmlToDict_readable h1) (xmlToDict_readable h2) n1 n2
    (sortedUnion (Dict.keys f1) (Dict.keys f2)) none
  exact ⟨_, hp, _, parts, sortedUnion_spec _ _, hparts, rfl⟩

namespace Xml

theorem match_symm {b : Bool} {m1 m2 : Option (List (Str × PyVal ℝ))} (h : Match b m1 m2) : Match b m2 m1 := by
  obtain ⟨e1, e2, h1, h2, ⟨x, y, h3, h4, h5⟩ | ⟨h3, d1, d2, h4, h5, h6, h7⟩⟩ := h
  · exact ⟨e2, e1, h2, h1, .inl ⟨y, x, h4, h3, same_symm h5⟩⟩
  · exact ⟨e2, e1, h2, h1, .inr ⟨h3.symm, d2, d1, h5, h4, fun k => (h6 k).symm,
      fun k a c ha hc => arraysMatch_symm (h7 k c a hc ha)⟩⟩

theorem section_verdicts {b : Bool} {f1 f2 : List (Str × PyVal ℝ)} {c : Str} {r1 r2 : List Row}
    (h1 : IsSection b f1 f2 c r1) (h2 : IsSection b f2 f1 c r2) : verdicts r1 = verdicts r2 := by
  obtain ⟨ms, u1, q1⟩ := h1
  obtain ⟨ms', u2, q2⟩ := h2
  have := sortedUnion_unique u1 (sortedUnion_symm u2)
  subst this
  clear u1 u2
  induction q1 generalizing r2 with
  | nil => cases q2; rfl
  | cons h _ ih =>
    cases q2 with
    | cons h' q2 =>
      obtain ⟨t1, t2, ok, rfl, hok⟩ := h
      obtain ⟨s1, s2, ok', rfl, hok'⟩ := h'
      have : ok = ok' := by
        rw [Bool.eq_iff_iff, hok, hok']
        exact ⟨match_symm, match_symm⟩
      subst this
      have := ih q2
      simp only [verdicts, List.filterMap_cons] at this ⊢
      rw [this]

theorem verdicts_append (a b : List Row) : verdicts (a ++ b) = verdicts a ++ verdicts b := List.filterMap_append

theorem category_verdicts {b : Bool} {f1 f2 : List (Str × PyVal ℝ)} {c : Str} {r1 r2 : List Row}
    (h1 : IsCategory b f1 f2 c r1) (h2 : IsCategory b f2 f1 c r2) : verdicts r1 = verdicts r2 := by
  rcases h1 with ⟨a1, a2, b1, rfl, s1⟩ | ⟨a1, rfl⟩
  · rcases h2 with ⟨-, -, b2, rfl, s2⟩ | ⟨a3, rfl⟩
    · have := section_verdicts s1 s2
      rw [List.cons_append, List.cons_append]
      simp only [verdicts, List.filterMap_cons, List.filterMap_append] at this ⊢
      rw [this]
    · exact absurd ⟨a2, a1⟩ a3
  · rcases h2 with ⟨a3, a4, -⟩ | ⟨a3, rfl⟩
    · exact absurd ⟨a4, a3⟩ a1
    · rfl

end Xml

/-- C44: the order of the two files does not matter for the verdicts. -/
theorem C44_symmetric (b : Bool) (f1 f2 : List (Str × PyVal ℝ)) (r1 r2 : List Row)
    (h1 : IsReport b f1 f2 r1) (h2 : IsReport b f2 f1 r2) : verdicts r1 = verdicts r2 := by
  obtain ⟨cs, p1, u1, q1, rfl⟩ := h1
  obtain ⟨cs', p2, u2, q2, rfl⟩ := h2
  have := sortedUnion_unique u1 (sortedUnion_symm u2)
  subst this
  clear u1 u2
  induction q1 generalizing p2 with
  | nil => cases q2; rfl
  | cons h _ ih =>
    cases q2 with
    | cons h' q2 =>
      rw [List.flatten_cons, List.flatten_cons, verdicts_append, verdicts_append, category_verdicts h h', ih _ q2]

namespace Xml

theorem same_self (x : ℝ) : SameRounded true (.fin x) (.fin x) := by
  obtain ⟨r, hr, -⟩ := C45_round_significant x 7 (by norm_num)
  exact ⟨_, hr, hr⟩

end Xml

/-- C44: compared with itself (numpy with `np.int`), an attribute with a finite value is OK; so is one
with data whose arrays are not empty and finite (and whose `value`, if any, is `None`). -/
theorem C44_self (e : List (Str × PyVal ℝ)) :
    (∀ x : ℝ, Dict.get? e valueKey = some (.num (.fin x)) → Match true (some e) (some e)) ∧
    (∀ dd, Dict.get? e valueKey ∈ [none, some .none] → Dict.get? e dataKey = some (.dict dd) →
      (∀ k a, Dict.get? dd k = some (.arr a) → ∃ l : List ℝ, l ≠ [] ∧ a = l.map .fin) →
      Match true (some e) (some e)) := by
  refine ⟨fun x h => ⟨e, e, rfl, rfl, .inl ⟨_, _, h, h, same_self x⟩⟩, ?_⟩
  intro dd hv hd ha
  refine ⟨e, e, rfl, rfl, .inr ⟨.inl hv, dd, dd, hd, hd, fun _ => Iff.rfl, ?_⟩⟩
  intro k a b h1 h2
  rw [h1] at h2
  cases h2
  obtain ⟨l, hl, rfl⟩ := ha k a h1
  refine .inl ⟨by simpa using hl, ?_⟩
  rw [List.forall₂_map_left_iff, List.forall₂_map_right_iff]
  exact List.forall₂_same.2 fun x _ => same_self x

/-- C44: an attribute without value (`None`) and without data is never OK, not even compared with
itself; neither is a NaN value. -/
theorem C44_none_fails (b : Bool) (e : List (Str × PyVal ℝ)) (m : Option (List (Str × PyVal ℝ)))
    (hd : Dict.get? e dataKey = none) :
    (Dict.get? e valueKey = some .none → ¬ Match b (some e) m) ∧
    (Dict.get? e valueKey = some (.num .nan) → ¬ Match b (some e) m) := by
  constructor
  · rintro hv ⟨e1, e2, h1, -, ⟨x, y, h3, -⟩ | ⟨-, d1, d2, h3, -⟩⟩
    · cases h1; rw [hv] at h3; cases h3
    · cases h1; rw [hd] at h3; cases h3
  · rintro hv ⟨e1, e2, h1, -, ⟨x, y, h3, -, z, h4, -⟩ | ⟨-, d1, d2, h3, -⟩⟩
    · cases h1; rw [hv] at h3; cases h3
      cases b <;> simp [roundSignificant, Fl.eqb] at h4
    · cases h1; rw [hd] at h3; cases h3

/-- C44 fails for arrays of different lengths: an array with one element matches any array all of whose
elements equal it (broadcasting). -/
theorem C44_broadcast_counterexample (x : ℝ) (n : ℕ) (hn : 2 ≤ n) :
    cmpArray true (some (.arr [.fin x])) (some (.arr (List.replicate n (.fin x)))) = true ∧
      [Fl.fin x] ≠ List.replicate n (.fin x) := by
  refine ⟨(cmpArray_iff _ _ _).2 (.inr (.inl ⟨_, rfl, ?_, ?_⟩)), ?_⟩
  · intro h
    have := congrArg List.length h
    simp at this; omega
  · intro y hy
    rw [(List.mem_replicate.1 hy).2]; exact same_self x
  · intro h
    have := congrArg List.length h
    simp at this; omega

/-- C44 fails with numpy 1.24 or later (no `np.int`): two values are OK only if both are zero. -/
theorem C44_new_numpy_counterexample (x y : Fl ℝ) :
    cmpValue false (.num x) (.num y) = true ↔ x = .fin 0 ∧ y = .fin 0 := by
  rw [cmpValue_iff]
  constructor
  · rintro ⟨z, h1, h2⟩
    rcases C45_new_numpy_counterexample x 7 with ⟨-, hx⟩ | ⟨-, hx⟩
    · rcases C45_new_numpy_counterexample y 7 with ⟨-, hy⟩ | ⟨-, hy⟩
      · exact ⟨hx, hy⟩
      · rw [h2] at hy; cases hy
    · rw [h1] at hx; cases hx
  · rintro ⟨rfl, rfl⟩
    exact ⟨.fin 0, by simp [roundSignificant, Fl.eqb], by simp [roundSignificant, Fl.eqb]⟩

/-- C44: if a file cannot be read the report is empty. -/
theorem C44_unreadable (b : Bool) (f : Option (List (Str × PyVal ℝ))) :
    compareXml b none f = .ok [] ∧ compareXml b f none = .ok [] := by
  constructor
  · cases f <;> rfl
  · cases f <;> rfl

/-! ### a case -/

/-- two files that differ in one value and in the presence of a category -/
def sampleFile (x : ℝ) : List (Str × PyVal ℝ) :=
  [("s".toList, .dict [("k".toList, .dict [(valueKey, .num (.fin x))]),
    ("h".toList, .dict [(dataKey, .dict [("bins".toList, .arr [.fin 1, .fin 2])])])])]

example : Match true (entryOf (sampleFile 5) "s".toList "k".toList) (entryOf (sampleFile 5) "s".toList "k".toList) :=
  (C44_self _).1 5 rfl

example : ¬ Match true (entryOf (sampleFile 0) "s".toList "k".toList) (entryOf (sampleFile 5) "s".toList "k".toList) := by
  rintro ⟨e1, e2, h1, h2, ⟨x, y, h3, h4, z, h5, h6⟩ | ⟨-, d1, d2, h3, -⟩⟩
  · cases h1; cases h2
    cases h3; cases h4
    obtain ⟨r, hr, -, -, hz, -⟩ := C45_round_significant 5 7 (by norm_num)
    rw [h6] at hr
    cases hr
    have : r = 0 := by
      simp [roundSignificant, Fl.eqb] at h5
      exact h5.symm
    exact absurd (hz.1 this) (by norm_num)
  · cases h1; cases h3

/-- a reader that knows the numbers 5 and 7 -/
noncomputable def digitEnv : Env ℝ where
  validTag := fun _ => true
  validChar := fun _ => true
  lower := List.map Char.toLower
  fmt := fun _ => []
  float := fun s => if s = ['5'] then some (.fin 5) else if s = ['7'] then some (.fin 7) else none

/-- a file with one attribute -/
def digitFile (c : Char) : Elem :=
  .mk ['r'] none [.mk ['s'] none [.mk ['k'] none [.mk valueKey (some [c]) []]]]

theorem digitFile_read (c : Char) (x : ℝ) (h : digitEnv.float [c] = some (.fin x)) (hc : c ≠ ',') :
    xmlToDict digitEnv (some (digitFile c)) =
      .ok (some [(['s'], .dict [(['k'], .dict [(valueKey, .num (.fin x))])])]) := by
  have h1 : convEntry digitEnv (.dict [(valueKey, .str [c])]) = .ok (.dict [(valueKey, .num (.fin x))]) := by
    have h0 : convValue digitEnv (.str [c]) = .ok (.num (.fin x)) := by
      rw [convValue, if_neg (by simp [noneStr])]
      have : Py.replaceChar ',' '.' [c] = [c] := by simp [Py.replaceChar, hc]
      rw [this, h]
    rw [convEntry]
    show (convValue digitEnv (.str [c]) >>= _) = _
    rw [h0]; rfl
  have h2 : elementToDict digitEnv [] [Elem.mk ['s'] none [Elem.mk ['k'] none [Elem.mk valueKey (some [c]) []]]] =
      [(['s'], .dict [(['k'], .dict [(valueKey, .str [c])])])] := by
    simp only [elementToDict, elemVal, textVal]
    rfl
  rw [digitFile, xmlToDict, h2]
  simp only [convSection, List.mapM_cons, List.mapM_nil, h1]
  rfl

theorem digit_noNested (x : ℝ) :
    NoNestedValue [(['s'], .dict [(['k'], .dict [(valueKey, .num (.fin x))])])] := by
  intro c m e v he hv
  unfold entryOf at he
  by_cases hc : ['s'] = c
  · subst hc
    by_cases hm : ['k'] = m
    · subst hm
      cases he
      cases hv; rfl
    · simp [Dict.get?, hm] at he
  · simp [Dict.get?, hc] at he

/-- the hypotheses of `C44_report` hold for two files that differ in the value -/
example : ∃ rows, compareXml true (some [(['s'], .dict [(['k'], .dict [(valueKey, .num (.fin 5))])])])
    (some [(['s'], .dict [(['k'], .dict [(valueKey, .num (.fin 7))])])]) = .ok rows ∧
    IsReport true [(['s'], .dict [(['k'], .dict [(valueKey, .num (.fin 5))])])]
      [(['s'], .dict [(['k'], .dict [(valueKey, .num (.fin 7))])])] rows :=
  C44_report digitEnv true (some (digitFile '5')) (some (digitFile '7')) _ _
    (digitFile_read '5' 5 (by simp [digitEnv]) (by decide))
    (digitFile_read '7' 7 (by simp [digitEnv]) (by decide)) (digit_noNested 5) (digit_noNested 7)

end Emva
