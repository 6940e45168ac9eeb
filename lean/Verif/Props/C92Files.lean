import Verif.Props.C92Results

/-!
C92: the files of a report, the head of the pages, and the dictionaries of information.
-/
set_option autoImplicit false
set_option maxRecDepth 8000
namespace Emva
namespace Jinja
open SheetSpec Report ReportDirs

/-- the variables of the style sheet -/
def styleEnv (g : Generator) : Env := fun n => if n = "marketing" then .dict g.marketing
  else if n = "basic" then .dict g.basic else .undefined

/-- a text of the style sheet -/
def styleAt (i : ℕ) : String :=
  match emvadatasheetSty[i]? with
  | some (.text s) => s
  | _ => ""

theorem style_gen {t : Texts} {env : Env} {m b : List (Str × Val)} (hm : env "marketing" = .dict m) (hb : env "basic" = .dict b)
    {a c d e : String} :
    render t env [.text a, .out (.attr (.var "marketing") "vendor"), .text c,
      .out (.missing (.attr (.var "basic") "model") (.lit "-")), .text d, .out (.attr (.var "marketing") "logo"), .text e] =
    .ok (a.toList ++ written t (entry m "vendor") ++ c.toList ++ shown t (entry b "model") ++ d.toList ++
      written t (entry m "logo") ++ e.toList) := by
  have h1 : eval env (.attr (.var "marketing") "vendor") = .ok (entry m "vendor") :=
    eval_attr_ok.2 ⟨.dict m, by rw [eval, hm], attr_dict m _ (by decide)⟩
  have h2 : eval env (.attr (.var "marketing") "logo") = .ok (entry m "logo") :=
    eval_attr_ok.2 ⟨.dict m, by rw [eval, hm], attr_dict m _ (by decide)⟩
  have h3 := field_eval (env := env) hb (k := "model") (by decide)
  have h4 := missing_text (t := t) (entry b "model")
  generalize missing (.str "-".toList) (entry b "model") = x at h3 h4
  rw [← h4]
  simp [render_cons, renderNode, h1, h2, h3, bind, Except.bind, text_eq]

theorem styleEnv_eq (g : Generator) : styleEnv g "marketing" = .dict g.marketing ∧ styleEnv g "basic" = .dict g.basic := by
  unfold styleEnv
  constructor
  · rw [if_pos rfl]
  · rw [if_neg (by decide), if_pos rfl]

/-- Reading the characters off the literals; evaluating `String.toList` on them takes too much memory. -/
theorem styleAt_chars : ∃ a b : List Char, styleAt 0 = String.ofList a ∧ styleAt 6 = String.ofList b ∧
    "\\fancyhead[C]{\\textbf{".toList.isSuffixOf a = true ∧ "}}\n".toList.isPrefixOf b = true :=
  ⟨_, _, rfl, rfl, by decide +kernel, by decide +kernel⟩

theorem styleAt_ok : "\\fancyhead[C]{\\textbf{".toList.isSuffixOf (styleAt 0).toList = true ∧
    "}}\n".toList.isPrefixOf (styleAt 6).toList = true := by
  obtain ⟨a, b, ha, hb, h1, h2⟩ := styleAt_chars
  have ha' : (styleAt 0).toList = a := by rw [ha]; exact String.toList_ofList
  have hb' : (styleAt 6).toList = b := by rw [hb]; exact String.toList_ofList
  rw [ha', hb']
  exact ⟨h1, h2⟩

theorem get_update {V : Type} (d e : Dict Str V) (he : Dict.WF e) (k : Str) :
    Dict.get? (Dict.update d e) k = (match Dict.get? e k with
      | some v => some v
      | none => Dict.get? d k) := by
  induction e generalizing d with
  | nil => rfl
  | cons x e ih =>
    have hx : x.1 ∉ Dict.keys e ∧ Dict.WF e := by
      unfold Dict.WF Dict.keys at he
      rw [List.map_cons, List.nodup_cons] at he
      exact he
    rw [Dict.update, List.foldl_cons]
    have := ih (Dict.set d x.1 x.2) hx.2
    rw [Dict.update] at this
    rw [this]
    obtain ⟨k', v⟩ := x
    by_cases hk : k' = k
    · subst hk
      have h0 : Dict.get? e k' = none := (Dict.get?_eq_none_iff e k').2 hx.1
      rw [h0]
      simp [Dict.get?]
    · rw [Dict.get?_set_ne _ _ hk]
      simp [Dict.get?, hk]

theorem keys_update {V : Type} (d e : Dict Str V) (he : Dict.WF e) :
    Dict.keys (Dict.update d e) = Dict.keys d ++ (Dict.keys e).filter fun k => decide (k ∉ Dict.keys d) := by
  induction e generalizing d with
  | nil => simp [Dict.update, Dict.keys]
  | cons x e ih =>
    have hx : x.1 ∉ Dict.keys e ∧ Dict.WF e := by
      unfold Dict.WF Dict.keys at he
      rw [List.map_cons, List.nodup_cons] at he
      exact he
    have := ih (Dict.set d x.1 x.2) hx.2
    rw [Dict.update, List.foldl_cons]
    rw [Dict.update] at this
    rw [this, Dict.keys_set]
    have hk : Dict.keys (x :: e) = x.1 :: Dict.keys e := rfl
    rw [hk, List.filter_cons]
    by_cases h : x.1 ∈ Dict.keys d
    · simp [h]
    · simp only [h, if_false, not_false_eq_true, decide_true, if_true, List.append_assoc, List.singleton_append, List.append_cancel_left_eq,
        List.cons.injEq, true_and]
      refine List.filter_congr fun y hy => ?_
      have : y ≠ x.1 := fun e => hx.1 (e ▸ hy)
      simp [this]

theorem get_ofInfo (d : Info) (k : Str) : Dict.get? (ofInfo d) k = (Dict.get? d k).map fun
    | some s => .str s
    | none => .none :=
  get_map (fun x : Option Str => (match x with
    | some s => .str s
    | none => .none : Val)) d k

end Jinja

open Jinja SheetSpec ReportDirs

/-- C92: there is a report exactly if all operation points are complete. -/
theorem C92_complete (t : Texts) (g : Generator) : (∃ s, report t g = .ok s) ↔ ∀ op ∈ g.ops, Complete op := by
  obtain ⟨c0, c1, c2, -, -, -, h⟩ := C92_report
  obtain ⟨S, -, -, hS, hr⟩ := h t
  constructor
  · rintro ⟨s, hs⟩
    obtain ⟨_, sheets, -, h2, -⟩ := (hr g s).1 hs
    intro op hop
    refine (hS op).1 ?_
    clear hs hr
    generalize g.ops = l at h2 hop
    induction h2 with
    | nil => cases hop
    | cons h _ ih =>
      rcases List.mem_cons.1 hop with rfl | hop
      · exact ⟨_, h⟩
      · exact ih hop
  · intro hc
    have all : ∀ (R : Val → Str → Prop) (l : List Val), (∀ op ∈ l, ∃ s, R op s) → ∃ ss, List.Forall₂ R l ss := by
      intro R l hl
      induction l with
      | nil => exact ⟨[], .nil⟩
      | cons x l ih =>
        obtain ⟨s, hs⟩ := hl x (by simp)
        obtain ⟨ss, h⟩ := ih fun op ho => hl op (by simp [ho])
        exact ⟨s :: ss, .cons hs h⟩
    obtain ⟨sheets, h2⟩ := all S g.ops fun op ho => (hS op).2 (hc op ho)
    obtain ⟨entries, h1⟩ := all (SheetSpec.Entry t) g.ops fun op ho => by
      obtain ⟨⟨settings, hs⟩, ⟨params, hp⟩, -⟩ := hc op ho
      exact ⟨_, settings, params, hs, hp, rfl⟩
    exact ⟨_, (hr g _).2 ⟨entries, sheets, h1, h2, rfl⟩⟩

/-- C92: the head of every page, in the style sheet: an entry `vendor` of the marketing information, the model and the logo.
The style sheet can always be written. -/
theorem C92_stylesheet : ∃ c0 c1 : Str, "\\fancyhead[C]{\\textbf{".toList <:+ c0 ∧ "}}\n".toList <+: c1 ∧
    ∀ t g, stylesheet t g = .ok (c0 ++ written t (entry g.marketing "vendor") ++ " \\, ".toList ++ shown t (entry g.basic "model") ++
      "}}\n\\fancyhead[RE,RO]{\\includegraphics[height=12mm]{".toList ++ written t (entry g.marketing "logo") ++ c1) := by
  refine ⟨(styleAt 0).toList, (styleAt 6).toList, List.isSuffixOf_iff_suffix.1 styleAt_ok.1,
    List.isPrefixOf_iff_prefix.1 styleAt_ok.2, fun t g => ?_⟩
  obtain ⟨h1, h2⟩ := styleEnv_eq g
  exact style_gen h1 h2

/-- C92: `latex` writes the style sheet and the report; if an operation point is not complete, only the style sheet is
written and an exception is raised. -/
theorem C92_files (t : Texts) (g : Generator) : ∃ sty, stylesheet t g = .ok sty ∧
    ((∀ op ∈ g.ops, Complete op) → ∃ rep, report t g = .ok rep ∧
      latex t g = ([("emvadatasheet.sty".toList, sty), ("report.tex".toList, rep)], .ok ())) ∧
    ((∃ op ∈ g.ops, ¬ Complete op) → ∃ e, latex t g = ([("emvadatasheet.sty".toList, sty)], .error e)) := by
  obtain ⟨c0, c1, -, -, h⟩ := C92_stylesheet
  have hs := h t g
  refine ⟨_, hs, fun hc => ?_, ?_⟩
  · obtain ⟨rep, hr⟩ := (C92_complete t g).2 hc
    exact ⟨rep, hr, by rw [latex, hs, hr]⟩
  · rintro ⟨op, ho, hn⟩
    rcases hr : report t g with e | rep
    · exact ⟨e, by rw [latex, hs, hr]⟩
    · exact absurd ((C92_complete t g).1 ⟨rep, hr⟩ op ho) hn

/-- the documented keys of the dictionaries of information -/
def SheetSpec.basicKeys : List String := ["vendor", "model", "data_type", "sensor_type", "sensor_diagonal", "lens_category",
  "resolution", "pixel_size", "readout_type", "transfer_type", "shutter_type", "overlap_capabilities",
  "maximum_readout_rate", "dark_current_compensation", "interface_type", "qe_plot"]
def SheetSpec.marketingKeys : List String := ["logo", "watermark", "missingplot", "cover_page"]
def SheetSpec.setupKeys : List String := ["Light source", "Light source non uniformity", "Irradiation calibration accuracy",
  "Irradiation measurement error", "Standard version"]

/-- a dictionary of information has the documented keys in their order, `None` unless they are given, and then the other
keys that are given -/
def SheetSpec.InfoDict (keys : List String) (kwargs d : Info) : Prop :=
  Dict.keys d = keys.map String.toList ++ (Dict.keys kwargs).filter (fun k => decide (k ∉ keys.map String.toList)) ∧
  (∀ k v, Dict.get? kwargs k = some v → Dict.get? d k = some v) ∧
  (∀ k ∈ keys, Dict.get? kwargs k.toList = none → Dict.get? d k.toList = some none)

theorem Jinja.info_ok (keys : List String) (d0 kwargs : Info) (hw : Dict.WF kwargs)
    (h0 : d0 = keys.map fun k => (k.toList, none)) : InfoDict keys kwargs (Dict.update d0 kwargs) := by
  have hk : Dict.keys d0 = keys.map String.toList := by rw [h0, Dict.keys, List.map_map]; rfl
  refine ⟨by rw [keys_update _ _ hw, hk], fun k v h => by rw [get_update _ _ hw, h], fun k hk' h => ?_⟩
  rw [get_update _ _ hw, h]
  simp only
  have : k.toList ∈ Dict.keys d0 := by rw [hk]; exact List.mem_map_of_mem hk'
  obtain ⟨v, hv⟩ := (Dict.has_iff_exists _ _).1 ((Dict.has_iff _ _).2 this)
  have hm := Dict.get?_mem hv
  rw [h0] at hm
  obtain ⟨_, -, e⟩ := List.mem_map.1 hm
  rw [hv]
  exact congrArg some (congrArg Prod.snd e).symm

/-- C92: `info_basic`, `info_marketing` and `info_setup`, for any keyword arguments. -/
theorem C92_info (kwargs : Info) (hw : Dict.WF kwargs) : InfoDict basicKeys kwargs (infoBasic kwargs) ∧
    InfoDict marketingKeys kwargs (infoMarketing kwargs) ∧ InfoDict setupKeys kwargs (infoSetup kwargs) := by
  refine ⟨info_ok _ _ _ hw ?_, info_ok _ _ _ hw ?_, info_ok _ _ _ hw ?_⟩ <;> decide +kernel

/-- C92: what is not said in `info_basic` appears as a dash, the rest as it was given. -/
theorem C92_blank (t : Texts) (kwargs : Info) (hw : Dict.WF kwargs) (k : String) (hk : k ∈ basicKeys) :
    shown t (entry (ofInfo (infoBasic kwargs)) k) = (match Dict.get? kwargs k.toList with
      | some (some s) => s
      | _ => "-".toList) := by
  obtain ⟨-, h1, h2⟩ := (C92_info kwargs hw).1
  rw [entry, get_ofInfo]
  rcases h : Dict.get? kwargs k.toList with _ | v
  · rw [h2 k hk h]; rfl
  · rw [h1 _ _ h]
    cases v <;> rfl

end Emva
