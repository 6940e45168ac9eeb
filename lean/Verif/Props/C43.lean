import Verif.Lemmas.Xml
import Mathlib.Data.Rat.Encodable

/-!
C43: writing a results dictionary to an xml file and reading it back.
-/
set_option autoImplicit false
namespace Emva
open Xml Spec
variable {F : Type} {env : Env F} {rnd : Fl F → Fl F}

namespace Xml

/-- the element of a payload -/
def payloadElem (env : Env F) : Payload F → Elem
  | .value none => .mk valueKey (some noneStr) []
  | .value (some x) => .mk valueKey (some (env.fmt x)) []
  | .data d => .mk dataKey none (d.map fun kv => .mk kv.1 (some (joinSpace (kv.2.asRead.map env.fmt))) [])

/-- the children of the element of an entry -/
def entryElems (env : Env F) (e : Entry F) : List Elem :=
  e.info.map (fun kv => .mk kv.1 (some kv.2) []) ++ [payloadElem env e.payload]

theorem ok_bind {α β : Type} (a : α) (f : α → Except PyErr β) : (Except.ok a >>= f) = f a := rfl

theorem words_ok (h : TextEnv env rnd) (a : List (Fl F)) :
    ∀ w ∈ a.map env.fmt, w ≠ [] ∧ ∀ c ∈ w, Py.isSpace c = false := by
  intro w hw
  obtain ⟨x, -, rfl⟩ := List.mem_map.1 hw
  exact ⟨h.fmt_ne x, fun c hc => (h.fmt_char x c hc).1⟩

theorem join_valid (h : TextEnv env rnd) (a : List (Fl F)) :
    (joinSpace (a.map env.fmt)).all env.validChar = true := by
  refine joinSpace_all _ (h.char ' ' (by simp)) ?_
  intro w hw c hc
  obtain ⟨x, -, rfl⟩ := List.mem_map.1 hw
  exact (h.fmt_char x c hc).2.2

theorem fmt_valid (h : TextEnv env rnd) (x : Fl F) : (env.fmt x).all env.validChar = true :=
  List.all_eq_true.2 fun c hc => (h.fmt_char x c hc).2.2

theorem none_valid (h : TextEnv env rnd) : noneStr.all env.validChar = true := by
  refine List.all_eq_true.2 fun c hc => h.char c ?_
  simp only [noneStr, List.mem_cons, List.not_mem_nil, or_false] at hc
  simp only [List.mem_cons, List.not_mem_nil, or_false]
  tauto

theorem valElem_data (h : TextEnv env rnd) (k : Str) (v : DataVal F) (hk : env.validTag k = true) :
    valElem env k v.py = .ok (.mk k (some (joinSpace (v.asRead.map env.fmt))) []) := by
  cases v with
  | arr a => rw [DataVal.py, valElem, leaf_ok hk (join_valid h a)]; rfl
  | num x => rw [DataVal.py, valElem, leaf_ok hk (fmt_valid h x)]; rfl

theorem valElem_entry (h : TextEnv env rnd) (k : Str) (e : Entry F) (hk : env.validTag k = true) (he : e.Ok env) :
    valElem env k e.py = .ok (.mk k none (entryElems env e)) := by
  refine valElem_dict hk (dictElems_append ?_ ?_)
  · exact dictElems_map _ _ _ _ fun kv hkv => by
      rw [valElem, leaf_ok (he.tags kv hkv).1 (he.tags kv hkv).2.2]
  · obtain ⟨info, p⟩ := e
    cases p with
    | value v =>
      cases v with
      | none =>
        show dictElems env [(valueKey, PyVal.none)] = _
        rw [dictElems, valElem, leaf_ok h.tag.2 (none_valid h), dictElems]; rfl
      | some x =>
        show dictElems env [(valueKey, PyVal.num x)] = _
        rw [dictElems, valElem, leaf_ok h.tag.2 (fmt_valid h x), dictElems]; rfl
    | data d =>
      obtain ⟨h1, h2, h3⟩ := he.data d rfl
      show dictElems env [(dataKey, PyVal.dict (d.map fun kv => (kv.1, kv.2.py)))] = _
      rw [dictElems, valElem_dict h.tag.1 (dictElems_map d (fun kv => kv.1) (fun kv => kv.2.py)
        (fun kv => .mk kv.1 (some (joinSpace (kv.2.asRead.map env.fmt))) [])
        fun kv hkv => valElem_data h _ _ (h2 kv hkv).1), dictElems]; rfl

/-- the tree written for a results dictionary -/
theorem dictElems_results (h : TextEnv env rnd) (d : ResultsDict F) (hd : d.Ok env) :
    dictElems env d.py = .ok (d.map fun s => .mk s.1 none (s.2.map fun m => .mk m.1 none (entryElems env m.2))) := by
  refine dictElems_map d _ _ _ fun s hs => ?_
  refine valElem_dict (hd.sections s hs).1 ?_
  exact dictElems_map s.2 (fun m => m.1) (fun m => m.2.py) _ fun m hm =>
    valElem_entry h _ _ (hd.entries s hs m hm).1 (hd.entries s hs m hm).2

theorem asRead_join_ne (h : TextEnv env rnd) (a : List (Fl F)) (ha : a ≠ []) : joinSpace (a.map env.fmt) ≠ [] :=
  joinSpace_ne (by simpa using ha) fun w hw => (words_ok h a w hw).1

theorem reread_payload (h : TextEnv env rnd) (e : Entry F) (he : e.Ok env) :
    reread (payloadElem env e.payload) = payloadElem env e.payload := by
  obtain ⟨info, p⟩ := e
  cases p with
  | value v =>
    cases v with
    | none => exact reread_leaf (by simp [noneStr])
    | some x => exact reread_leaf (h.fmt_ne x)
  | data d =>
    obtain ⟨-, h2, -⟩ := he.data d rfl
    rw [payloadElem, reread_node, List.map_map]
    congr 1
    exact List.map_congr_left fun kv hkv => reread_leaf (asRead_join_ne h _ (h2 kv hkv).2)

theorem reread_entry (h : TextEnv env rnd) (e : Entry F) (he : e.Ok env) :
    (entryElems env e).map reread = entryElems env e := by
  rw [entryElems, List.map_append, List.map_map, List.map_singleton, reread_payload h e he]
  congr 1
  exact List.map_congr_left fun kv hkv => reread_leaf (he.tags kv hkv).2.1

theorem convArray_text (h : TextEnv env rnd) (a : List (Fl F)) :
    convArray env (.str (joinSpace (a.map env.fmt))) = .ok (.arr (a.map rnd)) := by
  rw [convArray, strip_join (words_ok h a), split_join _ (words_ok h a)]
  rw [mapM_map_ok (g := rnd) fun x _ => by rw [h.float_fmt]]
  rfl

theorem replaceChar_of_not_mem (a b : Char) (s : Str) (h : ∀ c ∈ s, c ≠ a) : Py.replaceChar a b s = s := by
  unfold Py.replaceChar
  conv_rhs => rw [← List.map_id s]
  exact List.map_congr_left fun c hc => by rw [if_neg (h c hc)]; rfl

/-- the dictionary of an entry as read, before the conversion -/
def rawPayload (env : Env F) : Payload F → Str × PyVal F
  | .value none => (valueKey, .str noneStr)
  | .value (some x) => (valueKey, .str (env.fmt x))
  | .data d => (dataKey, .dict (d.map fun kv => (env.lower kv.1, .str (joinSpace (kv.2.asRead.map env.fmt)))))

theorem elemVal_payload (h : TextEnv env rnd) (e : Entry F) (he : e.Ok env) :
    (env.lower (payloadElem env e.payload).tag, elemVal env (payloadElem env e.payload))
      = rawPayload env e.payload := by
  obtain ⟨info, p⟩ := e
  cases p with
  | value v =>
    cases v with
    | none => simp only [payloadElem, Elem.tag, h.lower.2, elemVal_leaf]; rfl
    | some x => simp only [payloadElem, Elem.tag, h.lower.2, elemVal_leaf]; rfl
  | data d =>
    obtain ⟨h1, -, h3⟩ := he.data d rfl
    simp only [payloadElem, Elem.tag, h.lower.1]
    rw [elemVal_node (by simpa using h1), List.map_map]
    simp only [Function.comp_def, Elem.tag, elemVal_leaf]
    rw [build_distinct (by rw [List.map_map]; exact h3)]
    rfl

theorem rawPayload_key (p : Payload F) : (rawPayload env p).1 = dataKey ∨ (rawPayload env p).1 = valueKey := by
  rcases p with (_ | _) | _ <;> simp [rawPayload]

theorem elemVal_entry (h : TextEnv env rnd) (k : Str) (e : Entry F) (he : e.Ok env) :
    elemVal env (.mk k none (entryElems env e)) =
      .dict (e.info.map (fun kv => (env.lower kv.1, .str kv.2)) ++ [rawPayload env e.payload]) := by
  rw [elemVal_node (by simp [entryElems])]
  have hm : (entryElems env e).map (fun e => (env.lower e.tag, elemVal env e)) =
      e.info.map (fun kv => (env.lower kv.1, .str kv.2)) ++ [rawPayload env e.payload] := by
    rw [entryElems, List.map_append, List.map_map, List.map_singleton, elemVal_payload h e he]
    congr 1
  rw [hm, build_distinct]
  rw [List.map_append, List.map_map, List.map_singleton]
  rw [List.nodup_append]
  refine ⟨he.nodup, by simp, ?_⟩
  intro a ha b hb hab
  obtain ⟨kv, hkv, rfl⟩ := List.mem_map.1 ha
  rw [List.mem_singleton] at hb
  subst hb
  have := he.keys kv hkv
  rcases rawPayload_key (env := env) e.payload with h' | h'
  · exact this.1 (hab.trans h')
  · exact this.2 (hab.trans h')

theorem dataKey_ne : dataKey ≠ valueKey := by decide

theorem convEntry_entry (h : TextEnv env rnd) (e : Entry F) (he : e.Ok env) :
    convEntry env (.dict (e.info.map (fun kv => (env.lower kv.1, .str kv.2)) ++ [rawPayload env e.payload]))
      = .ok ((e.lower env.lower).round rnd).py := by
  have k1 : ∀ kv ∈ e.info.map (fun kv => (env.lower kv.1, PyVal.str (F := F) kv.2)), kv.1 ≠ dataKey := by
    intro kv hkv
    obtain ⟨a, ha, rfl⟩ := List.mem_map.1 hkv
    exact (he.keys a ha).1
  have k2 : ∀ kv ∈ e.info.map (fun kv => (env.lower kv.1, PyVal.str (F := F) kv.2)), kv.1 ≠ valueKey := by
    intro kv hkv
    obtain ⟨a, ha, rfl⟩ := List.mem_map.1 hkv
    exact (he.keys a ha).2
  have m1 : dataKey ∉ (e.info.map (fun kv => (env.lower kv.1, PyVal.str (F := F) kv.2))).map Prod.fst := by
    intro hm
    obtain ⟨a, ha, h1⟩ := List.mem_map.1 hm
    exact k1 a ha h1
  have m2 : valueKey ∉ (e.info.map (fun kv => (env.lower kv.1, PyVal.str (F := F) kv.2))).map Prod.fst := by
    intro hm
    obtain ⟨a, ha, h1⟩ := List.mem_map.1 hm
    exact k2 a ha h1
  rw [convEntry]
  obtain ⟨info, p⟩ := e
  dsimp only at *
  rw [get?_append _ _ _ k1]
  cases p with
  | value v =>
    have hd : Dict.get? [rawPayload env (.value v)] dataKey = none := by
      cases v <;> rfl
    rw [hd]
    dsimp only
    rw [get?_append _ _ _ k2]
    cases v with
    | none =>
      rw [show Dict.get? [rawPayload env (.value none)] valueKey = some (.str noneStr) from rfl]
      dsimp only
      rw [convValue, if_pos (.inl rfl)]
      show Except.ok _ = _
      rw [set_append _ _ _ _ m2]
      simp only [Entry.py, Entry.lower, Entry.round, List.map_map]
      rfl
    | some x =>
      rw [show Dict.get? [rawPayload env (.value (some x))] valueKey = some (.str (env.fmt x)) from rfl]
      dsimp only
      rw [convValue, if_neg (show ¬(env.fmt x = noneStr ∨ _) from not_or.2 (h.fmt_none x)),
        replaceChar_of_not_mem _ _ _ fun c hc => (h.fmt_char x c hc).2.1, h.float_fmt]
      show Except.ok _ = _
      rw [set_append _ _ _ _ m2]
      simp only [Entry.py, Entry.lower, Entry.round, List.map_map]
      rfl
  | data d =>
    rw [show Dict.get? [rawPayload env (.data d)] dataKey = some (.dict (d.map fun kv => (env.lower kv.1, .str
      (joinSpace (kv.2.asRead.map env.fmt))))) from rfl]
    dsimp only
    rw [convData, mapM_map_ok (g := fun kv => (env.lower kv.1, PyVal.arr (kv.2.asRead.map rnd))) fun kv _ => by
      dsimp only
      rw [convArray_text h]; rfl]
    show Except.ok _ = _
    rw [set_append _ _ _ _ m1]
    simp only [Entry.py, Entry.lower, Entry.round, List.map_map]
    rfl

/-- the result of reading without any assumption on distinct keys -/
theorem read_write (h : TextEnv env rnd) (d : ResultsDict F) (hd : d.Ok env) :
    (dictToXml env d.py >>= fun t => xmlToDict env (some (reread t))) =
      .ok (some (build (d.map fun s => (env.lower s.1,
        .dict (build (s.2.map fun m => (env.lower m.1, ((m.2.lower env.lower).round rnd).py))))))) := by
  rw [dictToXml, dictElems_results h d hd, ok_bind, ok_bind]
  rw [reread_node, xmlToDict, elementToDict_build, List.map_map, List.map_map]
  have e1 : d.map (((fun e => (env.lower e.tag, elemVal env e)) ∘ reread) ∘ fun s : Str × List (Str × Entry F) =>
      Elem.mk s.1 none (s.2.map fun m => .mk m.1 none (entryElems env m.2))) =
      d.map fun s => (env.lower s.1, .dict (build (s.2.map fun m => (env.lower m.1,
        .dict (m.2.info.map (fun kv => (env.lower kv.1, .str kv.2)) ++ [rawPayload env m.2.payload]))))) := by
    refine List.map_congr_left fun s hs => ?_
    simp only [Function.comp]
    rw [reread_node, List.map_map, elemVal_node (by simpa using (hd.sections s hs).2), List.map_map]
    simp only [Elem.tag]
    congr 3
    refine List.map_congr_left fun m hm => ?_
    simp only [Function.comp]
    rw [reread_node, reread_entry h m.2 (hd.entries s hs m hm).2,
      elemVal_entry h _ _ (hd.entries s hs m hm).2]
  rw [e1]
  have key := forall₂_build (R := fun (a b : Str × PyVal F) =>
      a.1 = b.1 ∧ convSection env a.2 = .ok b.2) (fun _ _ h => h.1) d (fun s => env.lower s.1)
      (fun s => .dict (build (s.2.map fun m => (env.lower m.1,
        .dict (m.2.info.map (fun kv => (env.lower kv.1, .str kv.2)) ++ [rawPayload env m.2.payload])))))
      (fun s => .dict (build (s.2.map fun m => (env.lower m.1, ((m.2.lower env.lower).round rnd).py))))
      (fun s hs => ⟨rfl, ?_⟩)
  · rw [mapM_forall₂ (r := build (d.map fun s => (env.lower s.1,
        .dict (build (s.2.map fun m => (env.lower m.1, ((m.2.lower env.lower).round rnd).py))))))]
    · rfl
    · refine key.imp ?_
      rintro ⟨a1, a2⟩ ⟨b1, b2⟩ ⟨h1, h2⟩
      dsimp only at *
      rw [h2, h1]; rfl
  · rw [convSection]
    have key2 := forall₂_build (R := fun (a b : Str × PyVal F) =>
      a.1 = b.1 ∧ convEntry env a.2 = .ok b.2) (fun _ _ h => h.1) s.2 (fun m => env.lower m.1)
      (fun m => .dict (m.2.info.map (fun kv => (env.lower kv.1, .str kv.2)) ++ [rawPayload env m.2.payload]))
      (fun m => ((m.2.lower env.lower).round rnd).py)
      (fun m hm => ⟨rfl, convEntry_entry h m.2 (hd.entries s hs m hm).2⟩)
    rw [mapM_forall₂ (r := build (s.2.map fun m => (env.lower m.1, ((m.2.lower env.lower).round rnd).py)))]
    · rfl
    · refine key2.imp ?_
      rintro ⟨a1, a2⟩ ⟨b1, b2⟩ ⟨h1, h2⟩
      dsimp only at *
      rw [h2, h1]; rfl

theorem round_id (e : Entry F) : e.round id = e := by
  obtain ⟨i, v | d⟩ := e
  · simp [Entry.round]
  · simp only [Entry.round]
    congr 2
    conv_rhs => rw [← List.map_id d]
    refine List.map_congr_left fun kv _ => ?_
    obtain ⟨k, a | x⟩ := kv
    · simp only [List.map_id, id]
    · rfl

theorem dict_round_id (d : ResultsDict F) : d.round id = d := by
  unfold ResultsDict.round
  conv_rhs => rw [← List.map_id d]
  refine List.map_congr_left fun s _ => ?_
  obtain ⟨k, l⟩ := s
  simp only [round_id, id]
  congr 1
  exact List.map_id _

end Xml

/-- C43, for numbers that need not be written exactly: what is read are the numbers as the texts give them. -/
theorem C43_rounded (h : TextEnv env rnd) (d : ResultsDict F) (hd : d.Ok env) (hk : d.Distinct env) :
    (dictToXml env d.py >>= fun t => xmlToDict env (some (reread t))) =
      .ok (some ((d.lower env.lower).round rnd).py) := by
  rw [read_write h d hd, build_distinct (by rw [List.map_map]; exact hk.1)]
  congr 2
  rw [ResultsDict.py, ResultsDict.round, ResultsDict.lower, List.map_map, List.map_map]
  refine List.map_congr_left fun s hs => ?_
  rw [build_distinct (by rw [List.map_map]; exact hk.2 s hs)]
  simp only [Function.comp, List.map_map]
  rfl

/-- C43: a results dictionary (keys distinct up to case, no empty strings or arrays, valid tags) written
to a file and read back is the same dictionary with lower-case keys. -/
theorem C43_round_trip (h : GoodEnv env) (d : ResultsDict F) (hd : d.Ok env) (hk : d.Distinct env) :
    (dictToXml env d.py >>= fun t => xmlToDict env (some (reread t))) =
      .ok (some (d.lower env.lower).py) := by
  rw [C43_rounded h d hd hk, dict_round_id]

/-- C43, keys equal up to case collide: whatever the keys, reading succeeds, and under the lower-case
names one finds the entry that was written last. -/
theorem C43_collision (h : GoodEnv env) (d : ResultsDict F) (hd : d.Ok env) :
    ∃ r, (dictToXml env d.py >>= fun t => xmlToDict env (some (reread t))) = .ok (some r) ∧
      ∀ pre s ms post mpre m e mpost, d = pre ++ (s, ms) :: post → ms = mpre ++ (m, e) :: mpost →
        (∀ x ∈ post, env.lower x.1 ≠ env.lower s) → (∀ x ∈ mpost, env.lower x.1 ≠ env.lower m) →
        ∃ dm, Dict.get? r (env.lower s) = some (.dict dm) ∧
          Dict.get? dm (env.lower m) = some (e.lower env.lower).py := by
  have hrw := read_write h d hd
  simp only [round_id] at hrw
  refine ⟨_, hrw, ?_⟩
  intro pre s ms post mpre m e mpost h1 h2 h3 h4
  refine ⟨build (ms.map fun m => (env.lower m.1, (m.2.lower env.lower).py)), ?_, ?_⟩
  · rw [h1, List.map_append, List.map_cons]
    apply build_get_last
    intro kv hkv
    obtain ⟨x, hx, rfl⟩ := List.mem_map.1 hkv
    exact h3 x hx
  · rw [h2, List.map_append, List.map_cons]
    apply build_get_last
    intro kv hkv
    obtain ⟨x, hx, rfl⟩ := List.mem_map.1 hkv
    exact h4 x hx

/-- C43: an attribute whose `data` contains an empty array is written but cannot be read back: its text
is read as `None`, and the conversion raises `AttributeError`. -/
theorem C43_empty_array (h : GoodEnv env) (s m k : Str) (hs : env.validTag s = true) (hm : env.validTag m = true)
    (hk : env.validTag k = true) :
    (dictToXml env (ResultsDict.py [(s, [(m, ⟨[], .data [(k, .arr [])]⟩)])]) >>= fun t =>
      xmlToDict env (some (reread t))) = .error .attributeError := by
  have h1 : dictElems env [(k, PyVal.arr [])] = .ok [.mk k (some []) []] := by
    rw [dictElems, valElem, leaf_ok hk (by rfl), dictElems]; rfl
  have h2 : dictElems env [(dataKey, PyVal.dict [(k, PyVal.arr [])])] =
      .ok [.mk dataKey none [.mk k (some []) []]] := by
    rw [dictElems, valElem_dict h.tag.1 h1, dictElems]; rfl
  have h3 : dictElems env [(m, PyVal.dict [(dataKey, PyVal.dict [(k, PyVal.arr [])])])] =
      .ok [.mk m none [.mk dataKey none [.mk k (some []) []]]] := by
    rw [dictElems, valElem_dict hm h2, dictElems]; rfl
  have h4 : dictElems env [(s, PyVal.dict [(m, PyVal.dict [(dataKey, PyVal.dict [(k, PyVal.arr [])])])])] =
      .ok [.mk s none [.mk m none [.mk dataKey none [.mk k (some []) []]]]] := by
    rw [dictElems, valElem_dict hs h3, dictElems]; rfl
  rw [dictToXml]
  have h5 : ResultsDict.py [(s, [(m, (⟨[], .data [(k, .arr [])]⟩ : Entry F))])] =
      [(s, PyVal.dict [(m, PyVal.dict [(dataKey, PyVal.dict [(k, PyVal.arr [])])])])] := rfl
  rw [h5, h4, ok_bind, ok_bind]
  rw [reread_node, xmlToDict, elementToDict_build]
  simp only [List.map_cons, List.map_nil, reread_node]
  rw [elemVal_node (by simp), List.map_singleton, elemVal_node (by simp), List.map_singleton,
    elemVal_node (by simp), List.map_singleton]
  simp only [Elem.tag, h.lower.1, reread, rereads, readText]
  rw [elemVal]
  rfl



theorem inside_cons {d : List (Str × PyVal F)} {k k' : Str} {v v' : PyVal F} : Inside ((k', v') :: d) k v ↔
    (k = k' ∧ v = v') ∨ (∃ d', v' = .dict d' ∧ Inside d' k v) ∨ Inside d k v := by
  constructor
  · rintro (h | ⟨h, h'⟩)
    · rcases List.mem_cons.1 h with h | h
      · cases h; exact .inl ⟨rfl, rfl⟩
      · exact .inr (.inr (.here h))
    · rcases List.mem_cons.1 h with h | h
      · cases h; exact .inr (.inl ⟨_, rfl, h'⟩)
      · exact .inr (.inr (.deep h h'))
  · rintro (⟨rfl, rfl⟩ | ⟨d', rfl, h⟩ | h)
    · exact .here (by simp)
    · exact .deep (k' := k') (d' := d') (by simp) h
    · cases h with
      | here h => exact .here (List.mem_cons_of_mem _ h)
      | deep h h' => exact .deep (List.mem_cons_of_mem _ h) h'

theorem leaf_cases (k s : Str) : (leaf env k s = .ok (.mk k (some s) []) ∧ env.validTag k = true ∧ ∀ c ∈ s, env.validChar c = true) ∨
    (leaf env k s = .error .valueError ∧ (env.validTag k = false ∨ ∃ c ∈ s, env.validChar c = false)) := by
  unfold leaf
  by_cases h : env.validTag k = true
  · by_cases h' : s.all env.validChar = true
    · left; rw [if_pos h, if_pos h']; exact ⟨rfl, h, by simpa using h'⟩
    · right; rw [if_pos h, if_neg h']; exact ⟨rfl, .inr (by simpa using h')⟩
  · right; rw [if_neg h]; exact ⟨rfl, .inl (by simpa using h)⟩

theorem mem_joinSpace (p : Char → Prop) (l : List Str) : (∃ c ∈ joinSpace l, p c) ↔
    (∃ w ∈ l, ∃ c ∈ w, p c) ∨ 2 ≤ l.length ∧ p ' ' := by
  match l with
  | [] => simp [joinSpace]
  | [w] => simp [joinSpace]
  | w :: w' :: l =>
    have ih := mem_joinSpace p (w' :: l)
    rw [show joinSpace (w :: w' :: l) = w ++ ' ' :: joinSpace (w' :: l) from rfl]
    constructor
    · rintro ⟨c, hc, hp⟩
      rcases List.mem_append.1 hc with hc | hc
      · exact .inl ⟨w, by simp, c, hc, hp⟩
      · rcases List.mem_cons.1 hc with rfl | hc
        · exact .inr ⟨by simp, hp⟩
        · rcases ih.1 ⟨c, hc, hp⟩ with ⟨u, hu, h⟩ | ⟨h1, h2⟩
          · exact .inl ⟨u, List.mem_cons_of_mem _ hu, h⟩
          · exact .inr ⟨by simp, h2⟩
    · rintro (⟨u, hu, c, hc, hp⟩ | ⟨-, hp⟩)
      · rcases List.mem_cons.1 hu with rfl | hu
        · exact ⟨c, List.mem_append_left _ hc, hp⟩
        · obtain ⟨c, hc, hp⟩ := ih.2 (.inl ⟨u, hu, c, hc, hp⟩)
          exact ⟨c, List.mem_append_right _ (List.mem_cons_of_mem _ hc), hp⟩
      · exact ⟨' ', by simp, hp⟩

mutual
theorem valElem_cases (k : Str) (v : PyVal F) :
    ((∃ t, valElem env k v = .ok t) ∧ ¬ Unwritable env [(k, v)]) ∨
      (valElem env k v = .error .valueError ∧ Unwritable env [(k, v)]) := by
  have one : (env.validTag k = false ∨ BadText env v) → Unwritable env [(k, v)] := fun h => ⟨k, v, .here (by simp), h⟩
  have none : (∀ d, v ≠ .dict d) → ¬ (env.validTag k = false ∨ BadText env v) → ¬ Unwritable env [(k, v)] := by
    rintro hd h ⟨k', v', hi, hb⟩
    rcases inside_cons.1 hi with ⟨rfl, rfl⟩ | ⟨d', rfl, -⟩ | hi
    · exact h hb
    · exact hd d' rfl
    · rcases hi with hi | ⟨hi, -⟩ <;> cases hi
  match v with
  | .dict d =>
    unfold valElem
    by_cases h : env.validTag k = true
    · rw [if_pos h]
      rcases dictElems_cases d with ⟨⟨es, h1⟩, h2⟩ | ⟨h1, k', v', h2, h3⟩
      · left
        rw [h1]
        refine ⟨⟨_, rfl⟩, ?_⟩
        rintro ⟨k', v', hi, hb⟩
        rcases inside_cons.1 hi with ⟨rfl, rfl⟩ | ⟨d', hd, hi⟩ | hi
        · rcases hb with hb | hb
          · rw [h] at hb; cases hb
          · exact hb
        · cases hd; exact h2 ⟨k', v', hi, hb⟩
        · rcases hi with hi | ⟨hi, -⟩ <;> cases hi
      · right
        rw [h1]
        exact ⟨rfl, k', v', .deep (k' := k) (by simp) h2, h3⟩
    · right
      rw [if_neg h]
      exact ⟨rfl, one (.inl (by simpa using h))⟩
  | .arr a =>
    unfold valElem
    have e : BadText env (.arr a) ↔ ∃ c ∈ joinSpace (a.map env.fmt), env.validChar c = false := by
      rw [mem_joinSpace]; simp [BadText]
    rcases leaf_cases (env := env) k (joinSpace (a.map env.fmt)) with ⟨h1, h2, h3⟩ | ⟨h1, h2⟩
    · left
      refine ⟨⟨_, h1⟩, none (by simp) ?_⟩
      rw [e]
      rintro (h | ⟨c, hc, h⟩)
      · rw [h2] at h; cases h
      · rw [h3 c hc] at h; cases h
    · right
      exact ⟨h1, one (by rw [e]; exact h2)⟩
  | .num x =>
    unfold valElem
    rcases leaf_cases (env := env) k (env.fmt x) with ⟨h1, h2, h3⟩ | ⟨h1, h2⟩
    · left
      refine ⟨⟨_, h1⟩, none (by simp) ?_⟩
      rintro (h | ⟨c, hc, h⟩)
      · rw [h2] at h; cases h
      · rw [h3 c hc] at h; cases h
    · exact .inr ⟨h1, one h2⟩
  | .str s =>
    unfold valElem
    rcases leaf_cases (env := env) k s with ⟨h1, h2, h3⟩ | ⟨h1, h2⟩
    · left
      refine ⟨⟨_, h1⟩, none (by simp) ?_⟩
      rintro (h | ⟨c, hc, h⟩)
      · rw [h2] at h; cases h
      · rw [h3 c hc] at h; cases h
    · exact .inr ⟨h1, one h2⟩
  | .none =>
    unfold valElem
    rcases leaf_cases (env := env) k noneStr with ⟨h1, h2, h3⟩ | ⟨h1, h2⟩
    · left
      refine ⟨⟨_, h1⟩, none (by simp) ?_⟩
      rintro (h | ⟨c, hc, h⟩)
      · rw [h2] at h; cases h
      · rw [h3 c hc] at h; cases h
    · exact .inr ⟨h1, one h2⟩

theorem dictElems_cases (d : List (Str × PyVal F)) :
    ((∃ es, dictElems env d = .ok es) ∧ ¬ Unwritable env d) ∨
      (dictElems env d = .error .valueError ∧ Unwritable env d) := by
  match d with
  | [] =>
    left
    refine ⟨⟨_, rfl⟩, ?_⟩
    rintro ⟨k, v, hi, -⟩
    rcases hi with hi | ⟨hi, -⟩ <;> cases hi
  | (k, v) :: d =>
    rw [dictElems]
    rcases valElem_cases k v with ⟨⟨t, h1⟩, h2⟩ | ⟨h1, k', v', hi, hb⟩
    · rw [h1]
      rcases dictElems_cases d with ⟨⟨es, h3⟩, h4⟩ | ⟨h3, k', v', hi, hb⟩
      · left
        rw [h3]
        refine ⟨⟨_, rfl⟩, ?_⟩
        rintro ⟨k', v', hi, hb⟩
        rcases inside_cons.1 hi with h | h | h
        · exact h2 ⟨k', v', inside_cons.2 (.inl h), hb⟩
        · exact h2 ⟨k', v', inside_cons.2 (.inr (.inl h)), hb⟩
        · exact h4 ⟨k', v', h, hb⟩
      · right
        rw [h3]
        exact ⟨rfl, k', v', inside_cons.2 (.inr (.inr hi)), hb⟩
    · right
      rw [h1]
      refine ⟨rfl, k', v', ?_, hb⟩
      rcases inside_cons.1 hi with h | h | h
      · exact inside_cons.2 (.inl h)
      · exact inside_cons.2 (.inr (.inl h))
      · rcases h with h | ⟨h, -⟩ <;> cases h
end

/-- C43: a dictionary is written exactly if, at every depth, all names are xml tags and no text contains a character that xml does
not allow; otherwise `ValueError`. -/
theorem C43_rejected (d : List (Str × PyVal F)) (e : PyErr) :
    dictToXml env d = .error e ↔ e = .valueError ∧ Unwritable env d := by
  rw [dictToXml]
  rcases dictElems_cases (env := env) d with ⟨⟨es, h1⟩, h2⟩ | ⟨h1, h2⟩
  · rw [h1]
    constructor
    · intro h; cases h
    · rintro ⟨-, h⟩; exact absurd h h2
  · rw [h1]
    constructor
    · intro h; cases h; exact ⟨rfl, h2⟩
    · rintro ⟨rfl, -⟩; rfl

/-! ### cases meeting the hypotheses -/

/-- an environment satisfying the assumptions: numbers written in unary -/
def unaryEnv : Env ℚ where
  validTag := fun s => !s.isEmpty
  validChar := fun _ => true
  lower := List.map Char.toLower
  fmt := fun x => match x with
    | .nan => ['n']
    | .inf true => ['-', 'i']
    | .inf false => ['i']
    | .fin q => '1' :: List.replicate (Encodable.encode q) '1'
  float := fun s => match s with
    | ['n'] => some .nan
    | ['-', 'i'] => some (.inf true)
    | ['i'] => some (.inf false)
    | '1' :: r => (Encodable.decode (α := ℚ) r.length).map .fin
    | _ => none

/-- a name that is no tag, inside a dictionary -/
example : dictToXml unaryEnv [(['a'], .dict [([], .num (.fin 1))])] = .error .valueError :=
  (C43_rejected _ _).2 ⟨rfl, [], _, .deep (List.mem_singleton.2 rfl) (.here (List.mem_singleton.2 rfl)), .inl rfl⟩

theorem unaryEnv_good : GoodEnv unaryEnv where
  float_fmt x := by
    rcases x with _ | ⟨_ | _⟩ | q
    · rfl
    · rfl
    · rfl
    · show (Encodable.decode (α := ℚ) (List.replicate (Encodable.encode q) '1').length).map Fl.fin = _
      rw [List.length_replicate, Encodable.encodek]; rfl
  fmt_ne x := by rcases x with _ | ⟨_ | _⟩ | q <;> simp [unaryEnv]
  fmt_char x := by
    rcases x with _ | ⟨_ | _⟩ | q
    · decide
    · decide
    · decide
    · intro c hc
      have : c = '1' := by
        simp only [unaryEnv, List.mem_cons, List.mem_replicate] at hc
        tauto
      subst this
      decide
  fmt_none x := by
    rcases x with _ | ⟨_ | _⟩ | q
    · decide
    · decide
    · decide
    · simp [unaryEnv]
  char := by intros; rfl
  tag := ⟨rfl, rfl⟩
  lower := ⟨by decide, by decide⟩

/-- two sections, a number, a missing value and a histogram -/
def sampleResults : ResultsDict ℚ :=
  [("sensitivity".toList, [("QE".toList, ⟨[("unit".toList, "%".toList)], .value (some (.fin 50))⟩),
      ("K".toList, ⟨[], .value none⟩)]),
   ("spatial".toList, [("histogram_PRNU".toList,
      ⟨[], .data [("Bins".toList, .arr [.fin 1, .nan]), ("scale".toList, .num (.fin 2))]⟩)])]

theorem sampleResults_ok : sampleResults.Ok unaryEnv := by
  refine ⟨?_, ?_⟩
  · simp only [sampleResults, List.mem_cons, List.not_mem_nil, or_false, forall_eq_or_imp, forall_eq]
    exact ⟨⟨rfl, by simp⟩, ⟨rfl, by simp⟩⟩
  · simp only [sampleResults, List.mem_cons, List.not_mem_nil, or_false, forall_eq_or_imp, forall_eq]
    refine ⟨⟨⟨rfl, ?_⟩, ⟨rfl, ?_⟩⟩, ⟨rfl, ?_⟩⟩
    · refine ⟨?_, ?_, by simp, by simp⟩ <;>
        simp only [List.mem_cons, List.not_mem_nil, or_false, forall_eq]
      · exact ⟨rfl, by simp, rfl⟩
      · exact ⟨by decide, by decide⟩
    · exact ⟨by simp, by simp, by simp, by simp⟩
    · refine ⟨by simp, by simp, by simp, ?_⟩
      intro d hd
      cases hd
      refine ⟨by simp, ?_, by decide⟩
      simp only [List.mem_cons, List.not_mem_nil, or_false, forall_eq_or_imp, forall_eq]
      exact ⟨⟨rfl, by simp [DataVal.asRead]⟩, ⟨rfl, by simp [DataVal.asRead]⟩⟩

example : ((dictToXml unaryEnv sampleResults.py >>= fun t => xmlToDict unaryEnv (some (reread t)))) =
    .ok (some (ResultsDict.py
      [("sensitivity".toList, [("qe".toList, ⟨[("unit".toList, "%".toList)], .value (some (.fin 50))⟩),
          ("k".toList, ⟨[], .value none⟩)]),
       ("spatial".toList, [("histogram_prnu".toList,
          ⟨[], .data [("bins".toList, .arr [.fin 1, .nan]), ("scale".toList, .arr [.fin 2])]⟩)])])) := by
  rw [C43_round_trip unaryEnv_good _ sampleResults_ok ⟨by decide, by
    simp only [sampleResults, List.mem_cons, List.not_mem_nil, or_false, forall_eq_or_imp, forall_eq]
    exact ⟨by decide, by decide⟩⟩]
  rfl

end Emva
