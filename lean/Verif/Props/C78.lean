import Verif.Model.Export
import Verif.Props.C44
import Verif.Props.C69
import Verif.Props.C77

/-!
C78: the xml file of an evaluation contains every documented result and gives it back when it is read.
-/
set_option autoImplicit false
namespace Emva
open Results Xml Info Report Spec Export Routines

namespace Spec

/-- letters, digits and the underscore of ASCII -/
def identChar (c : Char) : Bool := c.isAlphanum || c == '_'

/-- an ASCII identifier -/
def ident : Str → Bool
  | [] => false
  | c :: s => (c.isAlpha || c == '_') && s.all identChar

/-- printable ASCII -/
def printable (c : Char) : Bool := 32 ≤ c.toNat && c.toNat < 127

/-- What is assumed about python and lxml, in addition to `TextEnv`: `str.lower` of ASCII strings, ASCII identifiers are tag
names, printable ASCII characters are allowed in texts. -/
structure StdEnv (env : Env ℝ) (rnd : Fl ℝ → Fl ℝ) : Prop extends TextEnv env rnd where
  lower_ascii : ∀ s : Str, (∀ c ∈ s, c.toNat < 128) → env.lower s = s.map Char.toLower
  tag_ident : ∀ s : Str, ident s = true → env.validTag s = true
  char_print : ∀ c, printable c = true → env.validChar c = true

end Spec

namespace Export

/-! ### facts about the documentation of results.py -/

def ascii (s : Str) : Bool := s.all fun c => decide (c.toNat < 128)

/-- the tags of a docstring before they are made lower-case -/
def rawTags (doc : Option Str) : List (Str × Str) :=
  match doc with
  | none => []
  | some s => (tagLines false ((splitlines s).map Py.strip)).filterMap (parseTag id)

def infoOk (info : List (Str × Str)) : Bool :=
  info.all (fun kv => ident kv.1 && ascii kv.1 && decide (asciiLower kv.1 = kv.1) && decide (kv.2 ≠ []) && kv.2.all printable &&
    decide (kv.1 ≠ dataKey) && decide (kv.1 ≠ valueKey)) &&
  decide ((info.map (·.1)).Nodup) &&
  (match Dict.get? info sectionKey with
   | some s => ident s && ascii s && decide (asciiLower s = s)
   | none => false)

def docOk (d : Str × Option Str) : Bool :=
  (rawTags d.2).all (fun kv => ascii kv.1) &&
  match docInfo asciiLower d.2 with
  | none => true
  | some info => ident d.1 && ascii d.1 && infoOk info

theorem docs_ok : resultsDocs.all docOk = true := by decide +kernel

theorem names_distinct : ((resultsDocs.filter fun d => (docInfo asciiLower d.2).isSome).map fun d => asciiLower d.1).Nodup := by
  decide +kernel

theorem attrs_wf : (attrOfName.map fun a => a.1.toList).Nodup := by decide +kernel

theorem parseTag_lower (lower : Str → Str) (l : Str) :
    parseTag lower l = (parseTag id l).map fun kv => (lower kv.1, kv.2) := by
  unfold parseTag
  split <;> rfl

theorem filterMap_lower (lower : Str → Str) (ls : List Str) :
    ls.filterMap (parseTag lower) = (ls.filterMap (parseTag id)).map fun kv => (lower kv.1, kv.2) := by
  rw [List.map_filterMap]
  exact congrFun (congrArg _ (funext fun l => parseTag_lower lower l)) ls

theorem docInfo_lower {lower : Str → Str} (h : ∀ s : Str, (∀ c ∈ s, c.toNat < 128) → lower s = s.map Char.toLower) (doc : Option Str) (hd : (rawTags doc).all (fun kv => ascii kv.1) = true) :
    docInfo lower doc = docInfo asciiLower doc := by
  match doc with
  | none => rfl
  | some [] => rfl
  | some (c :: s) =>
    unfold docInfo
    simp only
    have key : ∀ tags : List Str, (tags.filterMap (parseTag id)).all (fun kv => ascii kv.1) = true →
        attributeInfo lower tags = attributeInfo asciiLower tags := by
      intro tags ht
      unfold attributeInfo
      rw [filterMap_lower lower, filterMap_lower asciiLower]
      have : ((tags.filterMap (parseTag id)).map fun kv => (lower kv.1, kv.2)) =
          (tags.filterMap (parseTag id)).map fun kv => (asciiLower kv.1, kv.2) := by
        refine List.map_congr_left fun kv hkv => ?_
        rw [h kv.1 fun c hc => ?_]
        · rfl
        · exact of_decide_eq_true (List.all_eq_true.1 (List.all_eq_true.1 ht kv hkv) c hc)
      rw [this]
    have hd' : ((tagLines false ((splitlines (c :: s)).map Py.strip)).filterMap (parseTag id)).all
        (fun kv => ascii kv.1) = true := hd
    revert hd'
    generalize tagLines false ((splitlines (c :: s)).map Py.strip) = tags
    intro hd'
    cases tags with
    | nil => rfl
    | cons t ts => simp only [key _ hd']

theorem clsInfo_lower {lower : Str → Str} (h : ∀ s : Str, (∀ c ∈ s, c.toNat < 128) → lower s = s.map Char.toLower) : clsInfo lower resultsDocs = clsInfo asciiLower resultsDocs := by
  unfold clsInfo
  refine List.filterMap_congr fun name _ => ?_
  have : docInfo lower ((Dict.get? resultsDocs name).getD none) =
      docInfo asciiLower ((Dict.get? resultsDocs name).getD none) := by
    cases hg : Dict.get? resultsDocs name with
    | none => rfl
    | some doc =>
      have := List.all_eq_true.1 docs_ok _ (Dict.get?_mem hg)
      unfold docOk at this
      rw [Bool.and_eq_true] at this
      exact docInfo_lower h doc this.1
  rw [this]

/-- the documented attributes with their information -/
theorem clsInfo_env {env : Env ℝ} {rnd : Fl ℝ → Fl ℝ} (h : StdEnv env rnd) : clsInfo env.lower resultsDocs = clsInfo asciiLower resultsDocs :=
  clsInfo_lower h.lower_ascii

theorem info_of {name : Str} {info : List (Str × Str)} (h : (name, info) ∈ clsInfo asciiLower resultsDocs) :
    ident name = true ∧ ascii name = true ∧ infoOk info = true := by
  have hcls := C47_class asciiLower resultsDocs
  have hwf : Dict.WF (clsInfo asciiLower resultsDocs) := by
    unfold Dict.WF; exact hcls.1.imp ne_of_lt
  obtain ⟨doc, hg, hi⟩ := (hcls.2 name info).1 (Dict.get?_of_mem hwf h)
  have := List.all_eq_true.1 docs_ok _ (Dict.get?_mem hg)
  unfold docOk at this
  rw [Bool.and_eq_true] at this
  have h2 := this.2
  simp only [hi] at h2
  rw [Bool.and_eq_true, Bool.and_eq_true] at h2
  exact ⟨h2.1.1, h2.1.2, h2.2⟩


/-! ### computing the results -/

theorem stable_modelOf (a : Attr) : Stable (modelOf a) := by
  have s1 := stable_sumDiff (F := ℝ)
  have s2 := stable_sumDark (F := ℝ)
  cases a <;> unfold modelOf <;> stab

theorem stable_readVal (q : LSQ ℝ) (a : Attr) : Stable (readVal q a) := by
  have s1 := stable_read q a
  have s2 := stable_modelOf a
  unfold readVal
  refine s1.bind fun v => ?_
  cases v <;> stab

theorem stable_resultsLoop (q : LSQ ℝ) (l : List (Str × List (Str × Str))) : Stable (resultsLoop q l) := by
  induction l with
  | nil => exact Stable.pure _
  | cons x l ih =>
    obtain ⟨name, info⟩ := x
    unfold resultsLoop
    cases attrNamed name with
    | none => exact Stable.lift _
    | some a => exact (stable_readVal q a).bind fun v => ih.bind fun d => Stable.pure _

/-- the value of the attribute with a given name -/
noncomputable def valueNamed (q : LSQ ℝ) (r : Res ℝ) (name : Str) : Except PyErr (PyVal ℝ) :=
  match attrNamed name with
  | none => .error .attributeError
  | some a => val (readVal q a) r

theorem val_resultsLoop (q : LSQ ℝ) (r : Res ℝ) (l : List (Str × List (Str × Str))) :
    val (resultsLoop q l) r = l.mapM fun ki =>
      (valueNamed q r ki.1 >>= fun v => .ok (ki.1, withValue ki.2 v)) := by
  induction l with
  | nil => rfl
  | cons x l ih =>
    obtain ⟨name, info⟩ := x
    rw [List.mapM_cons, ← ih]
    rw [resultsLoop, valueNamed]
    cases attrNamed name with
    | none => rfl
    | some a =>
      simp only
      rw [val_bind (stable_readVal q a) fun v => (stable_resultsLoop q l).bind fun d => Stable.pure _]
      cases val (readVal q a) r with
      | error e => rfl
      | ok v =>
        simp only [except_bind_ok]
        rw [val_bind (stable_resultsLoop q l) fun d => Stable.pure _]
        rfl

theorem val_results (lower : Str → Str) (q : LSQ ℝ) (r : Res ℝ) :
    val (results lower q) r = objToDict lower resultsDocs (valueNamed q r) := val_resultsLoop q r _

theorem attrNamed_of_mem {s : String} {a : Attr} (h : (s, a) ∈ attrOfName) : attrNamed s.toList = some a := by
  unfold attrNamed
  have hn := attrs_wf
  revert h hn
  generalize attrOfName = l
  intro h hn
  induction l with
  | nil => cases h
  | cons x l ih =>
    rw [List.map_cons, List.nodup_cons] at hn
    rw [List.find?_cons]
    rcases List.mem_cons.1 h with rfl | h
    · simp
    · have : x.1.toList ≠ s.toList := by
        intro e
        exact hn.1 (List.mem_map.2 ⟨(s, a), h, e.symm⟩)
      rw [decide_eq_false this]
      exact ih h hn.2

theorem normalModel_ok (y : List ℤ) (hy : y ≠ []) : ∃ m, normalModel y histogramQmax = .ok m ∧ m ≠ [] := by
  obtain ⟨a, ha⟩ := exists_isMin hy
  obtain ⟨b, hb⟩ := exists_isMax hy
  unfold normalModel
  rw [minZ_of ha, maxZ_of hb]
  simp only
  rw [if_neg (by decide)]
  refine ⟨_, rfl, ?_⟩
  intro h
  have := congrArg List.length h
  simp only [List.length_map, List.length_range, List.length_nil] at this
  have hb := binCount_pos (b - a).toNat histogramQmax
  omega

theorem histogram_ne {y : List (ℤ × Bool)} {h : Hist} (hh : histogram1288 y histogramQmax = .ok h) :
    y ≠ [] ∧ h.bins ≠ [] ∧ h.values ≠ [] := by
  have hy : y ≠ [] := by rintro rfl; simp [histogram1288] at hh
  refine ⟨hy, ?_⟩
  have hv : (y.filter fun p => !p.2).map Prod.fst ≠ [] := by
    intro e
    simp [histogram1288, if_neg hy, e, minZ] at hh
  obtain ⟨a, ha⟩ := exists_isMin hv
  obtain ⟨b, hb⟩ := exists_isMax hv
  rw [histogram1288_eq y histogramQmax (by decide) a b ha hb] at hh
  obtain rfl := Except.ok.inj hh
  have hpos := binCount_pos (b - a).toNat histogramQmax
  rw [npHistogram_edges _ _ _ _ hpos]
  constructor <;>
  · intro e
    have := congrArg List.length e
    simp at this
    omega

theorem map_fst_ne {y : List (ℤ × Bool)} (h : y ≠ []) : y.map Prod.fst ≠ [] := by simpa using h

theorem accumulate_ne {l : List ℕ} (h : l ≠ []) : accumulate l ≠ [] := by
  intro e
  have := accumulate_length l
  rw [e] at this
  exact h (List.length_eq_zero_iff.1 this.symm)

/-- a histogram that can be computed has bins, and its normal curve can be computed -/
theorem hist_model (a : Attr) (r : Res ℝ) (q : LSQ ℝ) (h : HistF ℝ) (hh : val (Results.read q a) r = .ok (.hist h)) :
    h.bins ≠ [] ∧ h.values ≠ [] ∧ ∃ m, val (modelOf a) r = .ok m ∧ m ≠ [] := by
  have s1 := stable_sumDiff (F := ℝ)
  have s2 := stable_sumDark (F := ℝ)
  have s3 := fun b => stable_spat (F := ℝ) b
  cases a <;> try (exfalso; obtain ⟨v, -, hv⟩ := as_ok hh; cases hv; done)
  case s2q => cases hh
  case histogram_PRNU =>
    obtain ⟨v, hv, he⟩ := as_ok hh
    cases he
    change val histogramPRNU r = .ok h at hv
    unfold histogramPRNU at hv
    rw [val_bind s1 (by stab)] at hv
    obtain ⟨y, hy, hv⟩ := bind_ok_inv hv
    rw [val_bind (Stable.lift _) (by stab)] at hv
    obtain ⟨data, hdata, hv⟩ := bind_ok_inv hv
    rw [val_bind (Stable.lift _) (by stab)] at hv
    obtain ⟨hi, hhi, hv⟩ := bind_ok_inv hv
    rw [val_bind (s3 _) (by stab)] at hv
    obtain ⟨sp, -, hv⟩ := bind_ok_inv hv
    obtain rfl := Except.ok.inj hv
    obtain ⟨n1, n2, n3⟩ := histogram_ne hhi
    refine ⟨by simpa [scaleBins] using n2, by simpa [countsF] using n3, ?_⟩
    obtain ⟨m, hm, hne⟩ := normalModel_ok _ (map_fst_ne n1)
    refine ⟨m, ?_, hne⟩
    unfold modelOf
    rw [val_bind s1 (by stab), hy, except_bind_ok, val_bind (Stable.lift _) (by stab), hdata, except_bind_ok, val_lift, hm]
  case histogram_PRNU_accumulated =>
    obtain ⟨v, hv, he⟩ := as_ok hh
    cases he
    change val histogramPRNUAccumulated r = .ok h at hv
    unfold histogramPRNUAccumulated at hv
    rw [val_bind s1 (by stab)] at hv
    obtain ⟨y, hy, hv⟩ := bind_ok_inv hv
    rw [val_bind (Stable.lift _) (by stab)] at hv
    obtain ⟨data, hdata, hv⟩ := bind_ok_inv hv
    rw [val_bind (Stable.lift _) (by stab)] at hv
    obtain ⟨d, hd, hv⟩ := bind_ok_inv hv
    rw [val_bind (Stable.lift _) (by stab)] at hv
    obtain ⟨hi, hhi, hv⟩ := bind_ok_inv hv
    rw [val_bind (s3 _) (by stab)] at hv
    obtain ⟨sp, -, hv⟩ := bind_ok_inv hv
    obtain rfl := Except.ok.inj hv
    obtain ⟨n1, n2, n3⟩ := histogram_ne hhi
    refine ⟨by simpa [scaleBins] using n2, by simpa [percent] using accumulate_ne n3, ?_⟩
    obtain ⟨m, hm, hne⟩ := normalModel_ok _ (map_fst_ne n1)
    refine ⟨m, ?_, hne⟩
    unfold modelOf
    rw [val_bind s1 (by stab), hy, except_bind_ok, val_bind (Stable.lift _) (by stab), hdata, except_bind_ok,
      val_bind (Stable.lift _) (by stab), hd, except_bind_ok, val_lift, hm]
  case histogram_DSNU =>
    obtain ⟨v, hv, he⟩ := as_ok hh
    cases he
    change val histogramDSNU r = .ok h at hv
    unfold histogramDSNU at hv
    rw [val_bind s2 (by stab)] at hv
    obtain ⟨y, hy, hv⟩ := bind_ok_inv hv
    rw [val_bind (Stable.lift _) (by stab)] at hv
    obtain ⟨hi, hhi, hv⟩ := bind_ok_inv hv
    rw [val_bind (s3 _) (by stab)] at hv
    obtain ⟨sp, -, hv⟩ := bind_ok_inv hv
    obtain rfl := Except.ok.inj hv
    obtain ⟨n1, n2, n3⟩ := histogram_ne hhi
    refine ⟨by simpa [scaleBins] using n2, by simpa [countsF] using n3, ?_⟩
    obtain ⟨m, hm, hne⟩ := normalModel_ok _ (map_fst_ne n1)
    refine ⟨m, ?_, hne⟩
    unfold modelOf
    rw [val_bind s2 (by stab), hy, except_bind_ok, val_lift, hm]
  case histogram_DSNU_accumulated =>
    obtain ⟨v, hv, he⟩ := as_ok hh
    cases he
    change val histogramDSNUAccumulated r = .ok h at hv
    unfold histogramDSNUAccumulated at hv
    rw [val_bind s2 (by stab)] at hv
    obtain ⟨y, hy, hv⟩ := bind_ok_inv hv
    rw [val_bind (Stable.lift _) (by stab)] at hv
    obtain ⟨d, hd, hv⟩ := bind_ok_inv hv
    rw [val_bind (Stable.lift _) (by stab)] at hv
    obtain ⟨hi, hhi, hv⟩ := bind_ok_inv hv
    rw [val_bind (s3 _) (by stab)] at hv
    obtain ⟨sp, -, hv⟩ := bind_ok_inv hv
    obtain rfl := Except.ok.inj hv
    obtain ⟨n1, n2, n3⟩ := histogram_ne hhi
    refine ⟨by simpa [scaleBins] using n2, by simpa [percent] using accumulate_ne n3, ?_⟩
    obtain ⟨m, hm, hne⟩ := normalModel_ok _ (map_fst_ne n1)
    refine ⟨m, ?_, hne⟩
    unfold modelOf
    rw [val_bind s2 (by stab), hy, except_bind_ok, val_bind (Stable.lift _) (by stab), hd, except_bind_ok, val_lift, hm]

/-- the payload of an exported value -/
def payloadOf (model : List (Fl ℝ)) : Results.Value → Payload ℝ
  | .int i => .value (some (.fin (i : ℝ)))
  | .num .none => .value none
  | .num .npnan => .value (some .nan)
  | .num (.num x) => .value (some x)
  | .lin _ => .value none
  | .hist h => .data [(binsKey, .arr h.bins), (valuesKey, .arr h.values), (modelKey, .arr model)]

/-- a payload as python value -/
def asVal : Payload ℝ → PyVal ℝ
  | .value none => .none
  | .value (some x) => .num x
  | .data d => .dict (d.map fun kv => (kv.1, kv.2.py))

/-- the dictionary of an entry -/
def entryList (e : Entry ℝ) : List (Str × PyVal ℝ) :=
  e.info.map (fun kv => (kv.1, .str kv.2)) ++ match e.payload with
    | .value none => [(valueKey, .none)]
    | .value (some x) => [(valueKey, .num x)]
    | .data d => [(dataKey, .dict (d.map fun kv => (kv.1, kv.2.py)))]

theorem entry_py (e : Entry ℝ) : e.py = .dict (entryList e) := by
  obtain ⟨i, (_ | x) | d⟩ := e <;> rfl

/-- payloads of the attributes -/
def Fine : Payload ℝ → Prop
  | .value _ => True
  | .data d => ∃ b v m : List (Fl ℝ), b ≠ [] ∧ v ≠ [] ∧ m ≠ [] ∧ d = [(binsKey, .arr b), (valuesKey, .arr v), (modelKey, .arr m)]

theorem read_not_lin {a : Attr} (h : a ≠ .linearity) (q : LSQ ℝ) (r : Res ℝ) (l : Linearity ℝ) :
    val (Results.read q a) r ≠ .ok (.lin l) := by
  intro hh
  cases a <;> try (obtain ⟨v, -, hv⟩ := as_ok hh; cases hv; done)
  case s2q => cases hh
  case linearity => exact h rfl

theorem val_readVal {q : LSQ ℝ} {r : Res ℝ} {a : Attr} (ha : a ≠ .linearity) {v : Results.Value}
    (hv : val (Results.read q a) r = .ok v) :
    ∃ model, val (readVal q a) r = .ok (asVal (payloadOf model v)) ∧ Fine (payloadOf model v) ∧
      ((∃ h, v = .hist h) → val (modelOf a) r = .ok model) := by
  have hs : ∀ v : Results.Value, Stable (match v with
      | .int i => (pure (.num (.fin (i : ℝ))) : M ℝ (PyVal ℝ))
      | .num x => pure (numVal x)
      | .lin l => pure (.arr l.relative_deviation)
      | .hist h => do
        let model ← modelOf a
        pure (.dict (histDict h model))) := by
    intro v
    have := stable_modelOf a
    cases v <;> simp only <;> stab
  have e : val (readVal q a) r = val (match v with
      | .int i => (pure (.num (.fin (i : ℝ))) : M ℝ (PyVal ℝ))
      | .num x => pure (numVal x)
      | .lin l => pure (.arr l.relative_deviation)
      | .hist h => do
        let model ← modelOf a
        pure (.dict (histDict h model))) r := val_bind_ok (stable_read q a) hs hv
  rw [e]
  rcases v with i | (_ | _ | x) | l | h
  · exact ⟨[], rfl, trivial, by rintro ⟨h, hh⟩; cases hh⟩
  · exact ⟨[], rfl, trivial, by rintro ⟨h, hh⟩; cases hh⟩
  · exact ⟨[], rfl, trivial, by rintro ⟨h, hh⟩; cases hh⟩
  · exact ⟨[], rfl, trivial, by rintro ⟨h, hh⟩; cases hh⟩
  · exact absurd hv (read_not_lin ha q r l)
  · obtain ⟨n1, n2, m, hm, n3⟩ := hist_model a r q h hv
    refine ⟨m, ?_, ⟨_, _, _, n1, n2, n3, rfl⟩, fun _ => hm⟩
    simp only
    rw [val_bind_ok (stable_modelOf a) (by stab) hm]
    rfl

theorem set_append {V : Type} (d : List (Str × V)) (k : Str) (v : V) (h : k ∉ Dict.keys d) : Dict.set d k v = d ++ [(k, v)] := by
  induction d with
  | nil => rfl
  | cons p d ih =>
    obtain ⟨a, b⟩ := p
    have hne : a ≠ k := fun e => h (by simp [Dict.keys, e])
    rw [Dict.set, if_neg hne, ih fun hk => h (List.mem_cons_of_mem _ hk)]
    rfl

/-- what `infoOk` says -/
theorem infoOk_spec {info : List (Str × Str)} (h : infoOk info = true) :
    (∀ kv ∈ info, ident kv.1 = true ∧ ascii kv.1 = true ∧ asciiLower kv.1 = kv.1 ∧ kv.2 ≠ [] ∧ kv.2.all printable = true ∧
      kv.1 ≠ dataKey ∧ kv.1 ≠ valueKey) ∧ (info.map (·.1)).Nodup ∧
    ∃ s, Dict.get? info sectionKey = some s ∧ ident s = true ∧ ascii s = true ∧ asciiLower s = s := by
  unfold infoOk at h
  rw [Bool.and_eq_true, Bool.and_eq_true] at h
  obtain ⟨⟨h1, h2⟩, h3⟩ := h
  refine ⟨?_, of_decide_eq_true h2, ?_⟩
  · intro kv hkv
    have := List.all_eq_true.1 h1 kv hkv
    simp only [Bool.and_eq_true, decide_eq_true_eq] at this
    tauto
  · split at h3
    · rename_i s hs
      simp only [Bool.and_eq_true, decide_eq_true_eq] at h3
      exact ⟨s, hs, h3.1.1, h3.1.2, h3.2⟩
    · cases h3

theorem withValue_eq {info : List (Str × Str)} (h : infoOk info = true) (p : Payload ℝ) :
    withValue info (asVal p) = entryList ⟨info, p⟩ := by
  have hk := (infoOk_spec h).1
  have kd : dataKey ∉ Dict.keys (info.map fun kv => (kv.1, PyVal.str (F := ℝ) kv.2)) := by
    intro hm
    obtain ⟨x, hx, e⟩ := List.mem_map.1 hm
    obtain ⟨y, hy, rfl⟩ := List.mem_map.1 hx
    exact (hk y hy).2.2.2.2.2.1 e
  have kv : valueKey ∉ Dict.keys (info.map fun kv => (kv.1, PyVal.str (F := ℝ) kv.2)) := by
    intro hm
    obtain ⟨x, hx, e⟩ := List.mem_map.1 hm
    obtain ⟨y, hy, rfl⟩ := List.mem_map.1 hx
    exact (hk y hy).2.2.2.2.2.2 e
  rcases p with (_ | x) | d
  · exact set_append _ _ _ kv
  · exact set_append _ _ _ kv
  · exact set_append _ _ _ kd

theorem get_map {V W : Type} (f : V → W) (d : List (Str × V)) (k : Str) :
    Dict.get? (d.map fun kv => (kv.1, f kv.2)) k = (Dict.get? d k).map f := by
  induction d with
  | nil => rfl
  | cons p d ih =>
    obtain ⟨a, b⟩ := p
    simp only [List.map_cons, Dict.get?]
    split
    · rfl
    · exact ih

theorem get_append {V : Type} (d e : List (Str × V)) (k : Str) :
    Dict.get? (d ++ e) k = (Dict.get? d k).or (Dict.get? e k) := by
  induction d with
  | nil => rfl
  | cons p d ih =>
    obtain ⟨a, b⟩ := p
    simp only [List.cons_append, Dict.get?]
    split
    · rfl
    · exact ih

theorem entryList_section {info : List (Str × Str)} {p : Payload ℝ} {s : Str} (h : Dict.get? info sectionKey = some s) :
    Dict.get? (entryList ⟨info, p⟩) sectionKey = some (.str s) := by
  unfold entryList
  rw [get_append, get_map, h]
  rfl

theorem ascii_lower {env : Env ℝ} {rnd : Fl ℝ → Fl ℝ} (h : StdEnv env rnd) {s : Str} (hs : ascii s = true) : env.lower s = asciiLower s :=
  h.lower_ascii s fun c hc => of_decide_eq_true (List.all_eq_true.1 hs c hc)

theorem all_printable {env : Env ℝ} {rnd : Fl ℝ → Fl ℝ} (h : StdEnv env rnd) {s : Str} (hs : s.all printable = true) : s.all env.validChar = true :=
  List.all_eq_true.2 fun c hc => h.char_print c (List.all_eq_true.1 hs c hc)

theorem data_lower {env : Env ℝ} {rnd : Fl ℝ → Fl ℝ} (h : StdEnv env rnd) :
    env.lower binsKey = binsKey ∧ env.lower valuesKey = valuesKey ∧ env.lower modelKey = modelKey := by
  refine ⟨?_, ?_, ?_⟩ <;> rw [ascii_lower h (by decide)] <;> decide

theorem entry_ok {env : Env ℝ} {rnd : Fl ℝ → Fl ℝ} (h : StdEnv env rnd) {info : List (Str × Str)} (hi : infoOk info = true) {p : Payload ℝ}
    (hp : Fine p) : Entry.Ok env ⟨info, p⟩ := by
  obtain ⟨h1, h2, -⟩ := infoOk_spec hi
  obtain ⟨l1, l2, l3⟩ := data_lower h
  refine ⟨?_, ?_, ?_, ?_⟩
  · intro kv hkv
    obtain ⟨a1, a2, a3, a4, a5, -⟩ := h1 kv hkv
    exact ⟨h.tag_ident _ a1, a4, all_printable h a5⟩
  · intro kv hkv
    obtain ⟨a1, a2, a3, -, -, a4⟩ := h1 kv hkv
    rw [ascii_lower h a2, a3]
    exact a4
  · have : (info.map fun kv => env.lower kv.1) = info.map (·.1) :=
      List.map_congr_left fun kv hkv => by rw [ascii_lower h (h1 kv hkv).2.1, (h1 kv hkv).2.2.1]
    simpa only [this] using h2
  · intro d hd
    simp only at hd
    subst hd
    obtain ⟨b, v, m, nb, nv, nm, rfl⟩ := hp
    refine ⟨by simp, ?_, ?_⟩
    · intro kv hkv
      simp only [List.mem_cons, List.not_mem_nil, or_false] at hkv
      rcases hkv with rfl | rfl | rfl
      · exact ⟨h.tag_ident binsKey (by decide), nb⟩
      · exact ⟨h.tag_ident valuesKey (by decide), nv⟩
      · exact ⟨h.tag_ident modelKey (by decide), nm⟩
    · simp only [List.map_cons, List.map_nil, l1, l2, l3]
      decide

theorem entry_lower {env : Env ℝ} {rnd : Fl ℝ → Fl ℝ} (h : StdEnv env rnd) {info : List (Str × Str)} (hi : infoOk info = true) {p : Payload ℝ}
    (hp : Fine p) : (Entry.lower env.lower ⟨info, p⟩ : Entry ℝ) = ⟨info, p⟩ := by
  obtain ⟨h1, h2, -⟩ := infoOk_spec hi
  obtain ⟨l1, l2, l3⟩ := data_lower h
  have e1 : (info.map fun kv => (env.lower kv.1, kv.2)) = info := by
    conv_rhs => rw [← List.map_id info]
    exact List.map_congr_left fun kv hkv => by rw [ascii_lower h (h1 kv hkv).2.1, (h1 kv hkv).2.2.1]; rfl
  unfold Entry.lower
  simp only [e1]
  rcases p with v | d
  · rfl
  · obtain ⟨b, v, m, nb, nv, nm, rfl⟩ := hp
    simp only [List.map_cons, List.map_nil, l1, l2, l3, DataVal.asRead]

theorem lift_map {A B : Type} (G : A → B) (P : A → Prop) (l : List B) (h : ∀ b ∈ l, ∃ a, b = G a ∧ P a) :
    ∃ l' : List A, l = l'.map G ∧ ∀ a ∈ l', P a := by
  induction l with
  | nil => exact ⟨[], rfl, by simp⟩
  | cons b l ih =>
    obtain ⟨a, ha, hp⟩ := h b (by simp)
    obtain ⟨l', h1, h2⟩ := ih fun b hb => h b (by simp [hb])
    refine ⟨a :: l', by rw [h1, ha]; rfl, ?_⟩
    intro x hx
    rcases List.mem_cons.1 hx with rfl | hx
    · exact hp
    · exact h2 x hx

/-- the names of the documented attributes do not collide in lower case -/
theorem lower_inj {n1 n2 : Str} (h1 : n1 ∈ Dict.keys (clsInfo asciiLower resultsDocs))
    (h2 : n2 ∈ Dict.keys (clsInfo asciiLower resultsDocs)) (e : asciiLower n1 = asciiLower n2) : n1 = n2 := by
  have key : ∀ n ∈ Dict.keys (clsInfo asciiLower resultsDocs),
      ∃ d ∈ resultsDocs.filter fun d => (docInfo asciiLower d.2).isSome, d.1 = n := by
    intro n hn
    obtain ⟨info, hi⟩ := (Dict.has_iff_exists _ _).1 ((Dict.has_iff _ _).2 hn)
    obtain ⟨doc, hg, hdoc⟩ := ((C47_class asciiLower resultsDocs).2 _ _).1 hi
    exact ⟨(n, some doc), List.mem_filter.2 ⟨Dict.get?_mem hg, by simp [hdoc]⟩, rfl⟩
  obtain ⟨d1, m1, rfl⟩ := key n1 h1
  obtain ⟨d2, m2, rfl⟩ := key n2 h2
  rw [List.inj_on_of_nodup_map names_distinct m1 m2 e]

theorem nodup_map_on {A B : Type} (f : A → B) (l : List A) (h : l.Nodup) (hf : ∀ x ∈ l, ∀ y ∈ l, f x = f y → x = y) :
    (l.map f).Nodup := h.map_on hf

/-- The written file, read back: one entry for every documented attribute, with its value. -/
theorem export_read {env : Env ℝ} {rnd : Fl ℝ → Fl ℝ} (h : StdEnv env rnd) (q : LSQ ℝ) (r : Res ℝ) (P : Str → Payload ℝ)
    (hv : ∀ name ∈ Dict.keys (clsInfo asciiLower resultsDocs), valueNamed q r name = .ok (asVal (P name)) ∧ Fine (P name)) :
    ∃ t d, val (xml env q) r = .ok t ∧ xmlToDict env (some (reread t)) = .ok (some d) ∧
      (∀ name info sec, (name, info) ∈ clsInfo asciiLower resultsDocs → Dict.get? info sectionKey = some sec →
        entryOf d sec (asciiLower name) = some (entryList (Entry.round rnd ⟨info, P name⟩))) ∧
      ∀ sec m e, entryOf d sec m = some e → ∃ name info, (name, info) ∈ clsInfo asciiLower resultsDocs ∧
        Dict.get? info sectionKey = some sec ∧ m = asciiLower name := by
  have hcls := C47_class asciiLower resultsDocs
  generalize hL : clsInfo asciiLower resultsDocs = L at *
  have hinfo : ∀ ki ∈ L, ident ki.1 = true ∧ ascii ki.1 = true ∧ infoOk ki.2 = true := by
    intro ki hki
    exact info_of (hL ▸ hki)
  have hinj : ∀ k1 ∈ L, ∀ k2 ∈ L, asciiLower k1.1 = asciiLower k2.1 → k1.1 = k2.1 := by
    intro k1 h1 k2 h2 e
    exact lower_inj (hL ▸ List.mem_map_of_mem h1) (hL ▸ List.mem_map_of_mem h2) e
  have hwf : Dict.WF L := by unfold Dict.WF; exact hcls.1.imp ne_of_lt
  -- the results
  let rD : List (Str × Entry ℝ) := L.map fun ki => (ki.1, ⟨ki.2, P ki.1⟩)
  let g : Str × Entry ℝ → Str × List (Str × PyVal ℝ) := fun ne => (ne.1, entryList ne.2)
  have hres : val (results env.lower q) r = .ok (rD.map g) := by
    rw [val_results, objToDict, clsInfo_env h, hL]
    have : rD.map g = L.map fun ki => (ki.1, withValue ki.2 (asVal (P ki.1))) := by
      rw [List.map_map]
      exact List.map_congr_left fun ki hki => by rw [withValue_eq (hinfo ki hki).2.2]; rfl
    rw [this]
    exact mapM_ok fun ki hki => by rw [(hv ki.1 (List.mem_map_of_mem hki)).1]; rfl
  have hkeys : Dict.keys (rD.map g) = Dict.keys L := by
    simp only [Dict.keys, rD, g, List.map_map]; rfl
  have hwf' : Dict.WF (rD.map g) := by unfold Dict.WF; rw [hkeys]; exact hwf
  have hsec : ∀ ne ∈ rD, ∃ s, Dict.get? (entryList ne.2) sectionKey = some (.str s) ∧ Dict.get? ne.2.info sectionKey = some s ∧
      ident s = true ∧ ascii s = true ∧ asciiLower s = s := by
    intro ne hne
    obtain ⟨ki, hki, rfl⟩ := List.mem_map.1 hne
    obtain ⟨-, -, s, hs, a⟩ := infoOk_spec (hinfo ki hki).2.2
    exact ⟨s, entryList_section hs, hs, a⟩
  obtain ⟨s, hs, hsort, hparts, hperm⟩ := C46_sections (rD.map g) hwf' (by
    intro kv hkv
    obtain ⟨ne, hne, rfl⟩ := List.mem_map.1 hkv
    obtain ⟨s, hs, -⟩ := hsec ne hne
    exact ⟨s, hs⟩)
  obtain ⟨D, hD, hDs⟩ := lift_map (fun x : Str × List (Str × Entry ℝ) => (x.1, x.2.map g)) (fun x => x.2.Sublist rD) s (by
    intro sl hsl
    obtain ⟨-, hsub, -⟩ := hparts sl hsl
    obtain ⟨l, hl, e⟩ := List.sublist_map_iff.1 hsub
    exact ⟨(sl.1, l), by rw [← e], hl⟩)
  have hDsec : ∀ x ∈ D, x.2 ≠ [] ∧ ∀ ne ∈ x.2, ne ∈ rD ∧ Dict.get? ne.2.info sectionKey = some x.1 ∧ ident x.1 = true ∧
      ascii x.1 = true ∧ asciiLower x.1 = x.1 := by
    intro x hx
    have hm : (x.1, x.2.map g) ∈ s := hD ▸ List.mem_map_of_mem (f := fun x : Str × List (Str × Entry ℝ) => (x.1, x.2.map g)) hx
    obtain ⟨p1, -, p3⟩ := hparts _ hm
    refine ⟨by simpa using p1, ?_⟩
    intro ne hne
    have hr := (hDs x hx).subset hne
    obtain ⟨t, t1, t2, t3⟩ := hsec ne hr
    have := p3 (g ne) (List.mem_map_of_mem hne)
    have e : t = x.1 := by
      simp only [g] at this
      rw [t1] at this
      exact PyVal.str.inj (Option.some.inj this)
    subst e
    exact ⟨hr, t2, t3⟩
  have hDx : ∀ x ∈ D, ident x.1 = true ∧ ascii x.1 = true ∧ asciiLower x.1 = x.1 := by
    intro x hx
    obtain ⟨h1, h2⟩ := hDsec x hx
    obtain ⟨ne, hne⟩ := List.exists_mem_of_ne_nil _ h1
    exact (h2 ne hne).2.2
  have hrD : ∀ ne ∈ rD, ident ne.1 = true ∧ ascii ne.1 = true ∧ infoOk ne.2.info = true ∧ Fine ne.2.payload := by
    intro ne hne
    obtain ⟨ki, hki, rfl⟩ := List.mem_map.1 hne
    exact ⟨(hinfo ki hki).1, (hinfo ki hki).2.1, (hinfo ki hki).2.2, (hv ki.1 (List.mem_map_of_mem hki)).2⟩
  have hlowD : ∀ x ∈ D, env.lower x.1 = x.1 := fun x hx => by rw [ascii_lower h (hDx x hx).2.1, (hDx x hx).2.2]
  have hOk : ResultsDict.Ok env D := by
    refine ⟨fun x hx => ⟨h.tag_ident _ (hDx x hx).1, (hDsec x hx).1⟩, ?_⟩
    intro x hx ne hne
    obtain ⟨a1, a2, a3, a4⟩ := hrD ne ((hDs x hx).subset hne)
    exact ⟨h.tag_ident _ a1, entry_ok h a3 a4⟩
  have hDkeys : (D.map fun x => x.1).Pairwise (· < ·) := by
    have : Dict.keys s = D.map fun x => x.1 := by rw [hD, Dict.keys, List.map_map]; rfl
    rw [← this]; exact hsort
  have hrDlow : (rD.map fun ne => env.lower ne.1).Nodup := by
    have e : (rD.map fun ne => env.lower ne.1) = L.map fun ki => asciiLower ki.1 := by
      rw [List.map_map]
      exact List.map_congr_left fun ki hki => ascii_lower h (hinfo ki hki).2.1
    rw [e, show (L.map fun ki => asciiLower ki.1) = (Dict.keys L).map asciiLower by rw [Dict.keys, List.map_map]; rfl]
    refine nodup_map_on _ _ hwf ?_
    intro x hx y hy e
    obtain ⟨k1, h1, rfl⟩ := List.mem_map.1 hx
    obtain ⟨k2, h2, rfl⟩ := List.mem_map.1 hy
    exact hinj k1 h1 k2 h2 e
  have hDist : ResultsDict.Distinct env D := by
    refine ⟨?_, ?_⟩
    · rw [List.map_congr_left hlowD]
      exact hDkeys.imp ne_of_lt
    · intro x hx
      exact ((hDs x hx).map _).nodup hrDlow
  have hpy : nested s = ResultsDict.py D := by
    rw [nested, ResultsDict.py, hD, List.map_map]
    refine List.map_congr_left fun x _ => ?_
    simp only [Function.comp, List.map_map]
    congr 2
    exact List.map_congr_left fun ne _ => by rw [entry_py]; rfl
  have hrt := C43_rounded h.toTextEnv D hOk hDist
  obtain ⟨t, ht, hread⟩ := bind_ok_inv hrt
  refine ⟨t, _, ?_, hread, ?_, ?_⟩
  · unfold xml
    rw [val_bind (by exact stable_resultsLoop q _) (by stab), hres, except_bind_ok, val_bind (Stable.lift _) (by stab), val_lift,
      hs, except_bind_ok, val_lift, hpy, ht]
  · intro name info sec hki hsecn
    have hne : ((name, ⟨info, P name⟩) : Str × Entry ℝ) ∈ rD := List.mem_map.2 ⟨(name, info), hki, rfl⟩
    have hin : g (name, ⟨info, P name⟩) ∈ s.flatMap Prod.snd := hperm.mem_iff.2 (List.mem_map_of_mem hne)
    obtain ⟨sl, hsl, hm⟩ := List.mem_flatMap.1 hin
    rw [hD] at hsl
    obtain ⟨x, hx, rfl⟩ := List.mem_map.1 hsl
    obtain ⟨⟨n', E'⟩, hne', he⟩ := List.mem_map.1 hm
    have hn : n' = name := congrArg Prod.fst he
    subst hn
    obtain ⟨hr', hs', -⟩ := (hDsec x hx).2 _ hne'
    obtain ⟨ki, hki', hkie⟩ := List.mem_map.1 hr'
    have hk1 : ki.1 = n' := congrArg Prod.fst hkie
    have hk2 : (⟨ki.2, P ki.1⟩ : Entry ℝ) = E' := congrArg Prod.snd hkie
    have hk3 : ki.2 = info := by
      have a := Dict.get?_of_mem hwf (k := ki.1) (v := ki.2) hki'
      rw [hk1, Dict.get?_of_mem hwf hki] at a
      exact (Option.some.inj a).symm
    rw [hk3, hk1] at hk2
    subst hk2
    simp only at hs'
    rw [hsecn] at hs'
    obtain rfl := Option.some.inj hs'
    have w1 : Dict.WF (ResultsDict.py (ResultsDict.round rnd (ResultsDict.lower env.lower D))) := by
      unfold Dict.WF Dict.keys ResultsDict.py ResultsDict.round ResultsDict.lower
      rw [List.map_map, List.map_map, List.map_map]
      exact hDist.1
    have m1 : (x.1, PyVal.dict ((x.2.map fun m => (env.lower m.1, (m.2.lower env.lower).round rnd)).map fun m => (m.1, m.2.py))) ∈
        ResultsDict.py (ResultsDict.round rnd (ResultsDict.lower env.lower D)) := by
      unfold ResultsDict.py ResultsDict.round ResultsDict.lower
      rw [List.map_map, List.map_map]
      refine List.mem_map.2 ⟨x, hx, ?_⟩
      simp only [Function.comp, hlowD x hx, List.map_map]
      rfl
    have w2 : Dict.WF ((x.2.map fun m => (env.lower m.1, (m.2.lower env.lower).round rnd)).map fun m => (m.1, m.2.py)) := by
      unfold Dict.WF Dict.keys
      rw [List.map_map, List.map_map]
      exact hDist.2 x hx
    have m2 : (asciiLower n', PyVal.dict (entryList (Entry.round rnd ⟨info, P n'⟩))) ∈
        (x.2.map fun m => (env.lower m.1, (m.2.lower env.lower).round rnd)).map fun m => (m.1, m.2.py) := by
      rw [List.map_map]
      refine List.mem_map.2 ⟨_, hne', ?_⟩
      have := hrD _ hr'
      simp only [Function.comp]
      rw [entry_lower h this.2.2.1 this.2.2.2, entry_py, ascii_lower h this.2.1]
    unfold entryOf
    rw [Dict.get?_of_mem w1 m1]
    simp only
    rw [Dict.get?_of_mem w2 m2]
  · intro sec m e he
    unfold entryOf at he
    split at he
    swap
    · cases he
    rename_i d hd
    split at he
    swap
    · cases he
    rename_i e' he'
    have m1 := Dict.get?_mem hd
    unfold ResultsDict.py ResultsDict.round ResultsDict.lower at m1
    rw [List.map_map, List.map_map] at m1
    obtain ⟨x, hx, hxe⟩ := List.mem_map.1 m1
    simp only [Function.comp, hlowD x hx, Prod.mk.injEq, PyVal.dict.injEq] at hxe
    obtain ⟨rfl, rfl⟩ := hxe
    have m2 := Dict.get?_mem he'
    rw [List.map_map, List.map_map] at m2
    obtain ⟨ne, hne, hnee⟩ := List.mem_map.1 m2
    obtain ⟨hr, hs', -⟩ := (hDsec x hx).2 ne hne
    obtain ⟨ki, hki, rfl⟩ := List.mem_map.1 hr
    refine ⟨ki.1, ki.2, hki, hs', ?_⟩
    have := congrArg Prod.fst hnee
    simp only [Function.comp] at this
    rw [← this, ascii_lower h (hinfo ki hki).2.1]

end Export

namespace Spec

/-- The entry of the dictionary shows the value, up to the rounding by its text: a number under `value`, or a dictionary of arrays under `data`. -/
def ShowsValue (rnd : Fl ℝ → Fl ℝ) (e : List (Str × PyVal ℝ)) : Results.Value → Prop
  | .int i => Dict.get? e "value".toList = some (.num (rnd (.fin (i : ℝ)))) ∧ Dict.get? e "data".toList = none
  | .num .none => Dict.get? e "value".toList = some .none ∧ Dict.get? e "data".toList = none
  | .num .npnan => Dict.get? e "value".toList = some (.num (rnd .nan)) ∧ Dict.get? e "data".toList = none
  | .num (.num x) => Dict.get? e "value".toList = some (.num (rnd x)) ∧ Dict.get? e "data".toList = none
  | .lin _ => False
  | .hist h => Dict.get? e "value".toList = none ∧ ∃ model : List (Fl ℝ), Dict.get? e "data".toList = some (.dict
      [("bins".toList, .arr (h.bins.map rnd)), ("values".toList, .arr (h.values.map rnd)), ("model".toList, .arr (model.map rnd))])

end Spec

namespace Export

theorem info_get {info : List (Str × Str)} (h : infoOk info = true) :
    Dict.get? info dataKey = none ∧ Dict.get? info valueKey = none := by
  have hk := (infoOk_spec h).1
  constructor
  · rw [Dict.get?_eq_none_iff]
    intro hm
    obtain ⟨x, hx, e⟩ := List.mem_map.1 hm
    exact (hk x hx).2.2.2.2.2.1 e
  · rw [Dict.get?_eq_none_iff]
    intro hm
    obtain ⟨x, hx, e⟩ := List.mem_map.1 hm
    exact (hk x hx).2.2.2.2.2.2 e

theorem round_info (rnd : Fl ℝ → Fl ℝ) (info : List (Str × Str)) (p : Payload ℝ) :
    (Entry.round rnd ⟨info, p⟩ : Entry ℝ).info = info := rfl

theorem shows_entry (rnd : Fl ℝ → Fl ℝ) {info : List (Str × Str)} (h : infoOk info = true) (model : List (Fl ℝ)) (v : Results.Value)
    (hv : ∀ l, v ≠ .lin l) : ShowsValue rnd (entryList (Entry.round rnd ⟨info, payloadOf model v⟩)) v := by
  obtain ⟨i1, i2⟩ := info_get h
  have hd : Dict.get? (info.map fun kv => (kv.1, PyVal.str (F := ℝ) kv.2)) "data".toList = none := by
    rw [get_map]; change (Dict.get? info dataKey).map _ = _; rw [i1]; rfl
  have hval : Dict.get? (info.map fun kv => (kv.1, PyVal.str (F := ℝ) kv.2)) "value".toList = none := by
    rw [get_map]; change (Dict.get? info valueKey).map _ = _; rw [i2]; rfl
  rcases v with i | (_ | _ | x) | l | hh
  · constructor
    · rw [entryList, get_append, round_info, hval]; rfl
    · rw [entryList, get_append, round_info, hd]; rfl
  · constructor
    · rw [entryList, get_append, round_info, hval]; rfl
    · rw [entryList, get_append, round_info, hd]; rfl
  · constructor
    · rw [entryList, get_append, round_info, hval]; rfl
    · rw [entryList, get_append, round_info, hd]; rfl
  · constructor
    · rw [entryList, get_append, round_info, hval]; rfl
    · rw [entryList, get_append, round_info, hd]; rfl
  · exact absurd rfl (hv l)
  · constructor
    · rw [entryList, get_append, round_info, hval]; rfl
    · exact ⟨model, by rw [entryList, get_append, round_info, hd]; rfl⟩

theorem entry_texts (rnd : Fl ℝ → Fl ℝ) {info : List (Str × Str)} (p : Payload ℝ) {k : Str} (h1 : k ≠ dataKey) (h2 : k ≠ valueKey) :
    Dict.get? (entryList (Entry.round rnd ⟨info, p⟩)) k = (Dict.get? info k).map .str := by
  rw [entryList, get_append, round_info, get_map]
  have : ∀ x : PyVal ℝ, Dict.get? [(valueKey, x)] k = none := fun x => by
    rw [Dict.get?, if_neg (Ne.symm h2)]; rfl
  have this' : ∀ x : PyVal ℝ, Dict.get? [(dataKey, x)] k = none := fun x => by
    rw [Dict.get?, if_neg (Ne.symm h1)]; rfl
  have none_or : ∀ x y : Option (PyVal ℝ), y = none → x.or y = x := by rintro x _ rfl; simp
  refine none_or _ _ ?_
  rcases p with (_ | x) | d
  · exact this _
  · exact this _
  · exact this' _

theorem mapM_ok_mem {A B : Type} {f : A → Except PyErr B} {l : List A} {r : List B} (h : l.mapM f = .ok r) :
    ∀ a ∈ l, ∃ b, f a = .ok b := by
  induction l generalizing r with
  | nil => simp
  | cons x l ih =>
    rw [List.mapM_cons] at h
    obtain ⟨b, hb, h⟩ := bind_ok_inv h
    obtain ⟨bs, hbs, h⟩ := bind_ok_inv h
    intro a ha
    rcases List.mem_cons.1 ha with rfl | ha
    · exact ⟨b, hb⟩
    · exact ih hbs a ha

theorem val_readVal_inv {q : LSQ ℝ} {r : Res ℝ} {a : Attr} {w : PyVal ℝ} (h : val (readVal q a) r = .ok w) :
    ∃ v, val (Results.read q a) r = .ok v := by
  obtain ⟨v, r', hv, -⟩ := bind_ok h
  exact ⟨v, by unfold val; rw [hv]⟩

end Export

/-- C78: if the documented attributes can be computed, `xml` writes a file; reading it gives every documented attribute in
its section, under its lower-case name, with exactly its value (the arrays of a histogram with the normal curve of
`Histogram1288`) and the texts of its documentation, and nothing else. -/
theorem C78_export (env : Env ℝ) (rnd : Fl ℝ → Fl ℝ) (h : StdEnv env rnd) (q : LSQ ℝ) (r : Res ℝ)
    (hc : ∀ a : Attr, a ≠ .s2q → a ≠ .linearity → ∃ v, (Results.read q a r).1 = .ok v) :
    ∃ t d, (xml env q r).1 = .ok t ∧ xmlToDict env (some (reread t)) = .ok (some d) ∧
      (∀ s a, (s, a) ∈ attrOfName → a ≠ .s2q → a ≠ .linearity →
        ∃ doc info sec e v, Dict.get? resultsDocs s.toList = some (some doc) ∧ docInfo asciiLower (some doc) = some info ∧
          Dict.get? info "section".toList = some sec ∧ entryOf d sec (asciiLower s.toList) = some e ∧
          (Results.read q a r).1 = .ok v ∧ ShowsValue rnd e v ∧
          (∀ hst, v = .hist hst → ∃ model dd, (modelOf a r).1 = .ok model ∧ Dict.get? e "data".toList = some (.dict dd) ∧
            Dict.get? dd "model".toList = some (.arr (model.map rnd))) ∧
          ∀ k, k ≠ "data".toList → k ≠ "value".toList → Dict.get? e k = (Dict.get? info k).map .str) ∧
      (∀ sec m e, entryOf d sec m = some e → ∃ s a, (s, a) ∈ attrOfName ∧ a ≠ .s2q ∧ a ≠ .linearity ∧
        m = asciiLower s.toList) ∧
      NoNestedValue d := by
  classical
  have key : ∀ name ∈ Dict.keys (clsInfo asciiLower resultsDocs), ∃ p : Payload ℝ, valueNamed q r name = .ok (asVal p) ∧ Fine p ∧
      ∀ s a, (s, a) ∈ attrOfName → name = s.toList → ∃ v model, val (Results.read q a) r = .ok v ∧ p = payloadOf model v ∧
        (∀ l, v ≠ .lin l) ∧ ((∃ h, v = .hist h) → val (modelOf a) r = .ok model) := by
    intro name hn
    obtain ⟨s, a, hm, h1, h2, rfl⟩ := (C69_attributes name).1 hn
    obtain ⟨v, hv⟩ := hc a h1 h2
    obtain ⟨model, hv1, hv2, hv3⟩ := val_readVal h2 (q := q) (r := r) hv
    refine ⟨payloadOf model v, ?_, hv2, ?_⟩
    · unfold valueNamed
      rw [attrNamed_of_mem hm]
      exact hv1
    · intro s' a' hm' e
      have := attrNamed_of_mem hm'
      rw [← e, attrNamed_of_mem hm] at this
      obtain rfl := Option.some.inj this
      exact ⟨v, model, hv, rfl, fun l e => read_not_lin h2 q r l (e ▸ hv), hv3⟩
  let P : Str → Payload ℝ := fun name => if hn : name ∈ Dict.keys (clsInfo asciiLower resultsDocs) then (key name hn).choose
    else .value none
  have hP : ∀ name, ∀ hn : name ∈ Dict.keys (clsInfo asciiLower resultsDocs), P name = (key name hn).choose :=
    fun name hn => dif_pos hn
  obtain ⟨t, d, ht, hd, hfw, hbw⟩ := export_read h q r P fun name hn => by
    rw [hP name hn]; exact ⟨(key name hn).choose_spec.1, (key name hn).choose_spec.2.1⟩
  refine ⟨t, d, ht, hd, ?_, ?_, ?_⟩
  · intro s a hm h1 h2
    have hn := (C69_attributes s.toList).2 ⟨s, a, hm, h1, h2, rfl⟩
    obtain ⟨info, hi⟩ := (Dict.has_iff_exists _ _).1 ((Dict.has_iff _ _).2 hn)
    obtain ⟨doc, hg, hdoc⟩ := ((C47_class asciiLower resultsDocs).2 _ _).1 hi
    have hio := (info_of (Dict.get?_mem hi)).2.2
    obtain ⟨-, -, sec, hsec, -⟩ := infoOk_spec hio
    obtain ⟨v, model, hv, hp, hl, hmod⟩ := (key _ hn).choose_spec.2.2 s a hm rfl
    rw [← hP _ hn] at hp
    have hent := hfw _ _ _ (Dict.get?_mem hi) hsec
    rw [hp] at hent
    refine ⟨doc, info, sec, _, v, hg, hdoc, hsec, hent, hv, shows_entry rnd hio model v hl, ?_, fun k k1 k2 => entry_texts rnd _ k1 k2⟩
    rintro hst rfl
    refine ⟨model, [("bins".toList, .arr (hst.bins.map rnd)), ("values".toList, .arr (hst.values.map rnd)),
      ("model".toList, .arr (model.map rnd))], hmod ⟨_, rfl⟩, ?_, rfl⟩
    rw [entryList, get_append, round_info, get_map]
    change ((Dict.get? info dataKey).map _).or _ = _
    rw [(info_get hio).1]
    rfl
  · intro sec m e he
    obtain ⟨name, info, hki, -, hm⟩ := hbw sec m e he
    obtain ⟨s, a, h1, h2, h3, rfl⟩ := (C69_attributes name).1 (List.mem_map_of_mem hki)
    exact ⟨s, a, h1, h2, h3, hm⟩
  · intro sec m e w he hw
    obtain ⟨name, info, hki, hsec, rfl⟩ := hbw sec m e he
    rw [hfw _ _ _ hki hsec] at he
    obtain rfl := Option.some.inj he
    have hio := (info_of hki).2.2
    rw [entryList, get_append, round_info, get_map, (info_get hio).2] at hw
    rcases hp : P name with (_ | x) | dd <;> simp only [hp] at hw
    · obtain rfl := Option.some.inj hw; rfl
    · obtain rfl := Option.some.inj hw; rfl
    · cases hw

/-- C78: `xml` writes a file exactly when the documented attributes can be computed. -/
theorem C78_exactly (env : Env ℝ) (rnd : Fl ℝ → Fl ℝ) (h : StdEnv env rnd) (q : LSQ ℝ) (r : Res ℝ) :
    (∃ t, (xml env q r).1 = .ok t) ↔ ∀ a : Attr, a ≠ .s2q → a ≠ .linearity → ∃ v, (Results.read q a r).1 = .ok v := by
  constructor
  · rintro ⟨t, ht⟩ a h1 h2
    obtain ⟨l, r', hl, -⟩ := bind_ok ht
    have hl' : val (results env.lower q) r = .ok l := by unfold val; rw [hl]
    rw [val_results, objToDict, clsInfo_env h] at hl'
    have hall : ∀ a : Attr, ∃ s, (s, a) ∈ attrOfName := by
      intro a
      have : a ∈ attrOfName.map (·.2) := by cases a <;> decide
      obtain ⟨x, hx, rfl⟩ := List.mem_map.1 this
      exact ⟨x.1, hx⟩
    obtain ⟨s, hs⟩ := hall a
    have hn := (C69_attributes s.toList).2 ⟨s, a, hs, h1, h2, rfl⟩
    obtain ⟨ki, hki, hk⟩ := List.mem_map.1 hn
    obtain ⟨b, hb⟩ := mapM_ok_mem hl' ki hki
    obtain ⟨v, hv, -⟩ := bind_ok_inv hb
    rw [hk, valueNamed, attrNamed_of_mem hs] at hv
    exact val_readVal_inv hv
  · intro hc
    obtain ⟨t, d, ht, -⟩ := C78_export env rnd h q r hc
    exact ⟨t, ht⟩

/-- C78: files of measurements that are good enough in the sense of C77: one signal between 5 % and 70 % of saturation and
images of at least 5 x 5 pixels. -/
theorem C78_measurement (env : Env ℝ) (rnd : Fl ℝ → Fl ℝ) (h : StdEnv env rnd) (q : LSQ ℝ) (r : Res ℝ) (uy ud sy sd : List ℝ)
    (hr : DataOk r uy ud sy sd)
    (hh : 5 ≤ r.spatial.dark.h) (hw : 5 ≤ r.spatial.dark.w) (hn : r.index_u_ysat = none) (hne : uy ≠ [])
    (hpos : ∀ x ∈ sy, 0 ≤ x)
    (hmid : ∀ (k : ℕ) (ys : ℝ), (k = 0 ∨ AboveTwo sy k) → (∀ j, k < j → ¬ AboveTwo sy j) → (diff uy ud)[k]? = some ys →
      ∃ y ∈ diff uy ud, 5 / 100 * ys ≤ y ∧ y ≤ 7 / 10 * ys) :
    ∃ t d, (xml env q r).1 = .ok t ∧ xmlToDict env (some (reread t)) = .ok (some d) ∧
      ∀ s a, (s, a) ∈ attrOfName → a ≠ .s2q → a ≠ .linearity →
        ∃ sec e v, entryOf d sec (asciiLower s.toList) = some e ∧ (Results.read q a r).1 = .ok v ∧ ShowsValue rnd e v := by
  obtain ⟨t, d, h1, h2, h3, -⟩ := C78_export env rnd h q r fun a _ _ => C77_enough q r uy ud sy sd hr hh hw hn hne hpos hmid a
  refine ⟨t, d, h1, h2, ?_⟩
  intro s a hm ha hb
  obtain ⟨doc, info, sec, e, v, -, -, -, he, hv, hs, -⟩ := h3 s a hm ha hb
  exact ⟨sec, e, v, he, hv, hs⟩

/-- C78: the files of any two evaluations can be compared.  A number is OK exactly when its two values agree to 7 significant
digits after rounding by the texts; an attribute that is `None` is never OK, not even compared with itself. -/
theorem C78_compare (env : Env ℝ) (rnd : Fl ℝ → Fl ℝ) (h : StdEnv env rnd) (b : Bool) (q : LSQ ℝ) (r1 r2 : Res ℝ)
    (hc1 : ∀ a : Attr, a ≠ .s2q → a ≠ .linearity → ∃ v, (Results.read q a r1).1 = .ok v)
    (hc2 : ∀ a : Attr, a ≠ .s2q → a ≠ .linearity → ∃ v, (Results.read q a r2).1 = .ok v) :
    ∃ t1 t2 d1 d2 rows, (xml env q r1).1 = .ok t1 ∧ (xml env q r2).1 = .ok t2 ∧
      xmlToDict env (some (reread t1)) = .ok (some d1) ∧ xmlToDict env (some (reread t2)) = .ok (some d2) ∧
      compareXml b (some d1) (some d2) = .ok rows ∧ IsReport b d1 d2 rows ∧
      ∀ s a, (s, a) ∈ attrOfName → a ≠ .s2q → a ≠ .linearity → ∃ doc info sec,
        Dict.get? resultsDocs s.toList = some (some doc) ∧ docInfo asciiLower (some doc) = some info ∧
        Dict.get? info "section".toList = some sec ∧
        (∀ x y, (Results.read q a r1).1 = .ok (.num (.num x)) → (Results.read q a r2).1 = .ok (.num (.num y)) →
          (Match b (entryOf d1 sec (asciiLower s.toList)) (entryOf d2 sec (asciiLower s.toList)) ↔
            SameRounded b (rnd x) (rnd y))) ∧
        ((Results.read q a r1).1 = .ok (.num .none) →
          ¬ Match b (entryOf d1 sec (asciiLower s.toList)) (entryOf d2 sec (asciiLower s.toList))) := by
  obtain ⟨t1, d1, a1, a2, a3, -, a4⟩ := C78_export env rnd h q r1 hc1
  obtain ⟨t2, d2, b1, b2, b3, -, b4⟩ := C78_export env rnd h q r2 hc2
  obtain ⟨rows, hrows, hrep⟩ := C44_report env b _ _ d1 d2 a2 b2 a4 b4
  refine ⟨t1, t2, d1, d2, rows, a1, b1, a2, b2, hrows, hrep, ?_⟩
  intro s a hm h1 h2
  obtain ⟨doc, info, sec, e, v, hd, hi, hs, he, hv, hsh, -⟩ := a3 s a hm h1 h2
  obtain ⟨doc', info', sec', e', v', hd', hi', hs', he', hv', hsh', -⟩ := b3 s a hm h1 h2
  rw [hd] at hd'; cases hd'
  rw [hi] at hi'; cases hi'
  rw [hs] at hs'; cases hs'
  refine ⟨doc, info, sec, hd, hi, hs, ?_, ?_⟩
  · intro x y hx hy
    rw [hv] at hx; cases hx
    rw [hv'] at hy; cases hy
    obtain ⟨c1, c2⟩ := hsh
    obtain ⟨c1', c2'⟩ := hsh'
    rw [he, he']
    constructor
    · rintro ⟨e1, e2, g1, g2, ⟨x', y', g3, g4, g5⟩ | ⟨-, dd1, dd2, g3, -⟩⟩
      · cases g1; cases g2
        have := g3.symm.trans c1
        cases this
        have := g4.symm.trans c1'
        cases this
        exact g5
      · cases g1
        have := g3.symm.trans c2
        cases this
    · intro g
      exact ⟨e, e', rfl, rfl, .inl ⟨_, _, c1, c1', g⟩⟩
  · intro hx
    rw [hv] at hx; cases hx
    rw [he]
    exact (C44_none_fails b e _ hsh.2).1 hsh.1

/-- C78: without a pixel area the four figures per area are `None`: the comparison of such a file reports a difference even
with itself. -/
theorem C78_no_area (q : LSQ ℝ) (r : Res ℝ) (h : r.pixel_area = none) :
    ∀ a ∈ [Attr.u_p_min_area, .u_e_min_area, .u_p_sat_area, .u_e_sat_area], (Results.read q a r).1 = .ok (.num .none) := by
  have key : ∀ x : M ℝ (Fl ℝ), ((perArea x).as Results.Value.num r).1 = .ok (.num .none) := by
    intro x
    have : perArea x r = (.ok .none, r) := by
      unfold perArea
      rw [bind_def, show (ask Res.pixel_area r : Except PyErr (Option ℝ) × Res ℝ) = (.ok r.pixel_area, r) from rfl, h]
      rfl
    unfold M.as
    rw [bind_def, this]
    rfl
  intro a ha
  simp only [List.mem_cons, List.not_mem_nil, or_false] at ha
  rcases ha with rfl | rfl | rfl | rfl <;> exact key _

/-! ### a case meeting the hypotheses -/

/-- numbers are written in unary, rounded to integers -/
noncomputable def intEnv : Env ℝ where
  validTag := fun s => !s.isEmpty
  validChar := fun _ => true
  lower := List.map Char.toLower
  fmt := fun x => match x with
    | .nan => ['n']
    | .inf true => ['-', 'i']
    | .inf false => ['i']
    | .fin x => '1' :: List.replicate (Encodable.encode ⌊x⌋) '1'
  float := fun s => match s with
    | ['n'] => some .nan
    | ['-', 'i'] => some (.inf true)
    | ['i'] => some (.inf false)
    | '1' :: r => (Encodable.decode (α := ℤ) r.length).map fun z => .fin (z : ℝ)
    | _ => none

/-- rounding to integers -/
noncomputable def intRound : Fl ℝ → Fl ℝ
  | .fin x => .fin (⌊x⌋ : ℝ)
  | x => x

theorem intEnv_std : StdEnv intEnv intRound where
  float_fmt x := by
    rcases x with _ | ⟨_ | _⟩ | q
    · rfl
    · rfl
    · rfl
    · show (Encodable.decode (α := ℤ) (List.replicate (Encodable.encode ⌊q⌋) '1').length).map (fun z : ℤ => Fl.fin (z : ℝ)) = _
      rw [List.length_replicate, Encodable.encodek]; rfl
  fmt_ne x := by rcases x with _ | ⟨_ | _⟩ | q <;> simp [intEnv]
  fmt_char x := by
    rcases x with _ | ⟨_ | _⟩ | q
    · intro c hc
      have : c ∈ ['n'] := hc
      rw [List.mem_singleton] at this
      subst this
      exact ⟨by decide, by decide, rfl⟩
    · intro c hc
      have : c ∈ ['i'] := hc
      rw [List.mem_singleton] at this
      subst this
      exact ⟨by decide, by decide, rfl⟩
    · intro c hc
      have : c ∈ ['-', 'i'] := hc
      simp only [List.mem_cons, List.not_mem_nil, or_false] at this
      rcases this with rfl | rfl
      · exact ⟨by decide, by decide, rfl⟩
      · exact ⟨by decide, by decide, rfl⟩
    · intro c hc
      have : c = '1' := by
        simp only [intEnv, List.mem_cons, List.mem_replicate] at hc
        tauto
      subst this
      exact ⟨by decide, by decide, rfl⟩
  fmt_none x := by
    rcases x with _ | ⟨_ | _⟩ | q <;> simp [intEnv]
  char := by intros; rfl
  tag := ⟨rfl, rfl⟩
  lower := ⟨by simp [intEnv, dataKey], by simp [intEnv, valueKey]⟩
  lower_ascii := fun _ _ => rfl
  tag_ident := by
    intro s hs
    cases s with
    | nil => cases hs
    | cons c s => rfl
  char_print := fun _ _ => rfl

/-- the measurement of C77, written to a file -/
example (q : LSQ ℝ) : ∃ t, (xml intEnv q C77sample).1 = .ok t :=
  (C78_exactly intEnv intRound intEnv_std q C77sample).2 fun a _ _ => C77sample_computes q a

end Emva
