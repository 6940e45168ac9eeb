import Verif.Props.C92Session

/-!
C93: the documented information appears where the report has a place for it.  This fails for the vendor in the head of the
pages, for the cover page of the marketing information, and for a wavelength that is not given.
-/
set_option autoImplicit false
set_option maxRecDepth 4000
namespace Emva
namespace Jinja
open SheetSpec

theorem entry_set (d : List (Str × Val)) (k k' : String) (v : Val) (h : k.toList ≠ k'.toList) :
    entry (Dict.set d k.toList v) k' = entry d k' := by
  rw [entry, entry, Dict.get?_set_ne _ _ h]

theorem entry_self (d : List (Str × Val)) (k : String) (v : Val) : entry (Dict.set d k.toList v) k = v := by
  rw [entry, Dict.get?_set_self]
  rfl

theorem mem_intercalate {x sep : Str} {l : List Str} (h : x ∈ l) : x <:+: sep.intercalate l := by
  induction l with
  | nil => cases h
  | cons y l ih =>
    rcases List.mem_cons.1 h with rfl | h
    · cases l with
      | nil => simp [List.intercalate]
      | cons z l =>
        rw [List.intercalate_cons_cons]
        exact ((List.prefix_append _ _).trans (List.prefix_append _ _)).isInfix
    · have := ih h
      cases l with
      | nil => cases h
      | cons z l =>
        rw [List.intercalate_cons_cons]
        exact this.trans (List.suffix_append _ _).isInfix

theorem field_in (f : String → Str) (l : List Field) {x : Field} (h : x ∈ l) :
    infoLine x.2.1.toList x.2.2.1.toList (f x.1) x.2.2.2.toList <:+: fieldLines f l :=
  mem_intercalate (List.mem_map.2 ⟨x, h, rfl⟩)

theorem either_in {u a b c : Str} (h : u <:+: a ∨ u <:+: c) : u <:+: a ++ b ++ c := by
  rcases h with h | h
  · exact h.trans ((List.prefix_append _ _).trans (List.prefix_append _ _)).isInfix
  · exact h.trans (List.suffix_append _ _).isInfix

theorem basic_in (t : Texts) (b : List (Str × Val)) (x : Field) (h : x ∈ firstFields ++ lastFields) :
    infoLine x.2.1.toList x.2.2.1.toList (shown t (entry b x.1)) x.2.2.2.toList <:+: basicLines t b := by
  refine either_in ?_
  rcases List.mem_append.1 h with h | h
  · exact .inl (field_in (fun k => shown t (entry b k)) _ h)
  · exact .inr (field_in (fun k => shown t (entry b k)) _ h)

end Jinja

open Jinja SheetSpec ReportDirs

/-- C93: the vendor of the basic information does not change the style sheet with the head of the pages. -/
theorem C93_vendor_ignored (t : Texts) (g : Generator) (v : Val) :
    stylesheet t { g with basic := Dict.set g.basic "vendor".toList v } = stylesheet t g := by
  obtain ⟨c0, c1, -, -, h⟩ := C92_stylesheet
  rw [h, h]
  simp only [entry_set _ "vendor" "model" v (by decide)]

/-- C93: so the head of the pages does not in general name the vendor. -/
theorem C93_vendor_not : ¬ ∀ (t : Texts) (g : Generator) (name sty : Str), entry g.basic "vendor" = .str name →
    stylesheet t g = .ok sty → name <:+: sty := by
  intro h
  let t : Texts := ⟨fun _ => [], fun _ => []⟩
  let g : Generator := ⟨[], [], [], [], .none⟩
  obtain ⟨c0, c1, -, -, hs⟩ := C92_stylesheet
  have h0 := hs t g
  generalize c0 ++ _ ++ _ ++ _ ++ _ ++ _ ++ c1 = sty at h0
  have := h t { g with basic := Dict.set g.basic "vendor".toList (.str (List.replicate (sty.length + 1) 'x')) } _ sty
    (entry_self _ _ _) ((C93_vendor_ignored t g _).trans h0)
  have := this.length_le
  rw [List.length_replicate] at this
  omega

/-- C93: the cover page of the marketing information does not change the report. -/
theorem C93_cover_ignored (t : Texts) (g : Generator) (v : Val) (s : Str) :
    report t { g with marketing := Dict.set g.marketing "cover_page".toList v } = .ok s ↔ report t g = .ok s := by
  obtain ⟨c0, c1, c2, -, -, -, h⟩ := C92_report
  obtain ⟨S, -, -, -, hr⟩ := h t
  rw [hr, hr]
  simp only [qePlot, entry_set _ "cover_page" "watermark" v (by decide), entry_set _ "cover_page" "missingplot" v (by decide)]

/-- C93: so the cover page of the marketing information is not in general part of the report. -/
theorem C93_cover_not : ¬ ∀ (t : Texts) (g : Generator) (page s : Str), entry g.marketing "cover_page" = .str page →
    report t g = .ok s → page <:+: s := by
  intro h
  let t : Texts := ⟨fun _ => [], fun _ => []⟩
  let g : Generator := ⟨[], [], [], [], .none⟩
  obtain ⟨s, h0⟩ := (C92_complete t g).2 fun op ho => by cases ho
  have := h t { g with marketing := Dict.set g.marketing "cover_page".toList (.str (List.replicate (s.length + 1) 'x')) } _ s
    (entry_self _ _ _) ((C93_cover_ignored t g _ s).2 h0)
  have := this.length_le
  rw [List.length_replicate] at this
  omega

/-- C93: a wavelength that is not among the parameters leaves an empty place in the title of the sheet, where one that is `None`
is a dash. -/
theorem C93_wavelength (t : Texts) (op : Val) (s : Str) (params : List (Str × Val))
    (hp : look op ["test_parameters"] = .dict params) (h : Sheet t op s) :
    (Dict.get? params "Wavelength".toList = none →
      "\\newpage\n\\ReportSection{Operation Point: \\textbf{".toList ++ written t (look op ["name"]) ++ "} (@".toList ++
        ")}".toList <:+: s) ∧
    (Dict.get? params "Wavelength".toList = some .none →
      "\\newpage\n\\ReportSection{Operation Point: \\textbf{".toList ++ written t (look op ["name"]) ++ "} (@".toList ++
        ("-".toList ++ ")}".toList) <:+: s) := by
  obtain ⟨a, b, c, settings, params', -, hp', rfl, ⟨x, y, z, rfl, rfl, -⟩, -⟩ := h
  have hw : look op ["test_parameters", "Wavelength"] = entry params "Wavelength" := by
    have : look op ["test_parameters", "Wavelength"] = SheetSpec.get (look op ["test_parameters"]) "Wavelength" := rfl
    rw [this, hp]; rfl
  rw [hw, entry]
  generalize "\\newpage\n\\ReportSection{Operation Point: \\textbf{".toList ++ written t (look op ["name"]) ++ "} (@".toList = u
  generalize ")}".toList = w
  constructor
  · intro h
    rw [h]
    exact ⟨x, z ++ headerText t settings params' ++ b ++ c ++ "\n".toList, by simp [shown, written]⟩
  · intro h
    rw [h]
    refine ⟨x, z ++ headerText t settings params' ++ b ++ c ++ "\n".toList, ?_⟩
    have : shown t ((some Val.none).getD .undefined) = "-".toList := rfl
    rw [this]
    generalize "-".toList = d
    simp

/-- C93, what does hold: a vendor that is given to `info_marketing` stands in the head of the pages, before the model; the cover
page given to the report is included in it; and whatever is given to `info_basic` for a documented key of the general part
stands in the report beside its label. -/
theorem C93_information_partial (t : Texts) (g : Generator) :
    (∀ vendor, entry g.marketing "vendor" = .str vendor → ∃ sty, stylesheet t g = .ok sty ∧
      "\\fancyhead[C]{\\textbf{".toList ++ (vendor ++ (" \\, ".toList ++ shown t (entry g.basic "model"))) <:+: sty) ∧
    ∀ s, report t g = .ok s →
      (∀ page, page ≠ [] → g.coverPage = .str page → "\n\\input{".toList ++ (page ++ "}\n".toList) <:+: s) ∧
      (∀ x ∈ firstFields ++ lastFields,
        infoLine x.2.1.toList x.2.2.1.toList (shown t (entry g.basic x.1)) x.2.2.2.toList <:+: s) := by
  constructor
  · intro vendor hv
    obtain ⟨c0, c1, ⟨w, hw⟩, -, h⟩ := C92_stylesheet
    refine ⟨_, h t g, ?_⟩
    rw [← hw, hv]
    generalize "\\fancyhead[C]{\\textbf{".toList = u1
    generalize " \\, ".toList = u2
    generalize "}}\n\\fancyhead[RE,RO]{\\includegraphics[height=12mm]{".toList = u3
    generalize written t (entry g.marketing "logo") = u4
    generalize shown t (entry g.basic "model") = u5
    exact ⟨w, u3 ++ u4 ++ c1, by simp [written]⟩
  · intro s hs
    obtain ⟨c0, c1, c2, -, -, -, h⟩ := C92_report
    obtain ⟨S, -, -, -, hr⟩ := h t
    obtain ⟨entries, sheets, -, -, rfl⟩ := (hr g s).1 hs
    have app : ∀ {a b : Str} (c : Str), a <:+: b → a <:+: b ++ c := fun c h => h.trans (List.prefix_append _ _).isInfix
    constructor
    · intro page hp hc
      iterate 11 refine app _ ?_
      have : cover t g.coverPage = "\n\\input{".toList ++ (page ++ "}\n".toList) := by
        rw [hc, cover, if_pos (by cases page <;> simp_all [given]), written]
        exact List.append_assoc _ _ _
      rw [this]
      exact (List.suffix_append _ _).isInfix
    · intro x hx
      iterate 9 refine app _ ?_
      refine List.IsInfix.trans ?_ (List.suffix_append _ _).isInfix
      exact basic_in _ _ _ hx

/-- an operation point without a wavelength has a sheet -/
example (q : LSQ ℝ) (t : Texts) : ∃ op s, look op ["test_parameters"] = .dict [] ∧ Sheet t op s ∧
    "\\newpage\n\\ReportSection{Operation Point: \\textbf{".toList ++ written t (look op ["name"]) ++ "} (@".toList ++
      ")}".toList <:+: s := by
  obtain ⟨d, x, h1, h2, h3⟩ := C92_results (fun _ => []) q C77sample fun a _ _ => C77sample_computes q a
  let op : Val := .dict [("camera_settings".toList, .dict []), ("test_parameters".toList, .dict []), ("plots".toList, .dict []),
    ("results".toList, sectionsVal x)]
  have hp : look op ["test_parameters"] = .dict [] := rfl
  obtain ⟨hc, -⟩ := h3 op [] [] [] rfl hp rfl rfl
  obtain ⟨c0, c1, c2, -, -, -, h⟩ := C92_report
  obtain ⟨S, hS, -, hS', -⟩ := h t
  obtain ⟨s, hs⟩ := (hS' op).2 hc
  exact ⟨op, s, hp, hS op s hs, (C93_wavelength t op s [] hp (hS op s hs)).1 rfl⟩

/-- a report without operation points, with a cover page and a vendor for the head of the pages -/
example (t : Texts) : ∃ sty s, let g : Generator := ⟨ofInfo (infoMarketing [("vendor".toList, some "ACME".toList)]), ofInfo (infoBasic []),
      ofInfo (infoSetup []), [], .str "cover.tex".toList⟩
    stylesheet t g = .ok sty ∧ "ACME".toList <:+: sty ∧ report t g = .ok s ∧ "cover.tex".toList <:+: s := by
  let g : Generator := ⟨ofInfo (infoMarketing [("vendor".toList, some "ACME".toList)]), ofInfo (infoBasic []),
      ofInfo (infoSetup []), [], .str "cover.tex".toList⟩
  obtain ⟨s, hs⟩ := (C92_complete t g).2 fun op ho => by cases ho
  obtain ⟨h1, h2⟩ := C93_information_partial t g
  obtain ⟨sty, e1, e2⟩ := h1 "ACME".toList rfl
  have e3 := (h2 s hs).1 "cover.tex".toList (by decide) rfl
  have mid : ∀ a b c : Str, b <:+: a ++ (b ++ c) := fun a b c => ⟨a, c, by simp⟩
  exact ⟨sty, s, e1, (mid _ _ _).trans e2, hs, (mid _ _ _).trans e3⟩

end Emva
