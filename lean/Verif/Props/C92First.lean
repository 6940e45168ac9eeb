import Verif.Props.C92Complete

/-!
C92: the text of a report.
-/
set_option autoImplicit false
set_option maxRecDepth 4000
namespace Emva
namespace Jinja
open SheetSpec Report
variable {t : Texts} {env : Env}

/-! ### texts with placeholders -/

/-- letters and values -/
abbrev Sym := List (Char ⊕ Expr)

/-- a fixed text -/
def symChars (s : Str) : Sym := s.map Sum.inl

/-- the text, when `f` says what stands for a value -/
def interp (f : Expr → Str) (l : Sym) : Str := l.flatMap fun
  | .inl c => [c]
  | .inr e => f e

theorem interp_append (f : Expr → Str) (a b : Sym) : interp f (a ++ b) = interp f a ++ interp f b := by
  simp [interp, List.flatMap_append]

theorem interp_chars (f : Expr → Str) (s : Str) : interp f (symChars s) = s := by
  induction s with
  | nil => rfl
  | cons c s ih =>
    rw [symChars, List.map_cons, interp, List.flatMap_cons]
    rw [interp, symChars] at ih
    rw [ih]; rfl

theorem interp_one (f : Expr → Str) (e : Expr) : interp f [.inr e] = f e := by simp [interp]

/-- a statement without parts as a text with placeholders -/
def symNode : Node → Sym
  | .text s => symChars s.toList
  | .out e => [.inr e]
  | _ => []

/-- what stands for a value -/
noncomputable def valText (t : Texts) (env : Env) (e : Expr) : Str :=
  match eval env e with
  | .ok v => written t v
  | .error _ => []

theorem render_sym {es : List Expr} (he : ∀ e ∈ es, ∃ v, eval env e = .ok v) {l : List Node} (h : l.all (leafIn es) = true) :
    render t env l = .ok (interp (valText t env) (l.flatMap symNode)) := by
  induction l with
  | nil => simp [interp]
  | cons n l ih =>
    rw [List.all_cons, Bool.and_eq_true] at h
    rw [render_cons_ok]
    refine ⟨interp (valText t env) (symNode n), _, ?_, ih h.2, by rw [List.flatMap_cons, interp_append]⟩
    cases n with
    | text s => rw [renderNode_text, symNode, interp_chars]
    | out e =>
      obtain ⟨v, hv⟩ := he e (of_decide_eq_true h.1)
      rw [renderNode_out_ok, symNode, interp_one]
      exact ⟨v, hv, by rw [valText, hv]⟩
    | ite c a b => cases h.1
    | loop n e b => cases h.1
    | items k v e b => cases h.1

/-- a line of basic information -/
def symField (x : Field) : Sym :=
  symChars ("\\textsl{".toList ++ x.2.1.toList ++ "} \\hfill".toList ++ x.2.2.1.toList) ++
  [.inr (.missing (.attr (.var "basic") x.1) (.lit "-"))] ++ symChars (x.2.2.2.toList ++ "\n\\\\[1mm]".toList)

/-- lines of basic information -/
def symFields (l : List Field) : Sym := List.intercalate (symChars "\n".toList) (l.map symField)

theorem interp_intercalate (f : Expr → Str) (a : Sym) (l : List Sym) :
    interp f (List.intercalate a l) = List.intercalate (interp f a) (l.map (interp f)) := by
  induction l with
  | nil => rfl
  | cons x l ih =>
    cases l with
    | nil => simp [List.intercalate, interp]
    | cons y l =>
      rw [List.map_cons, List.map_cons] at *
      rw [List.intercalate_cons_cons, List.intercalate_cons_cons, interp_append, interp_append, ih]

/-- the values of the basic information -/
def fieldExprs (l : List Field) : List Expr := l.map fun x => .missing (.attr (.var "basic") x.1) (.lit "-")

variable {b : List (Str × Val)}

theorem field_eval (hb : env "basic" = .dict b) {k : String} (hk : k ∉ dictMethods) :
    eval env (.missing (.attr (.var "basic") k) (.lit "-")) = .ok (missing (.str "-".toList) (entry b k)) := by
  rw [eval_missing_ok]
  refine ⟨_, _, eval_attr_ok.2 ⟨.dict b, by rw [eval, hb], attr_dict b k hk⟩, by rw [eval], rfl⟩

theorem interp_field_gen (f : Expr → Str) (e : Expr) (p l q g u m : Str) :
    interp f (symChars (p ++ l ++ q ++ g) ++ [.inr e] ++ symChars (u ++ m)) = p ++ l ++ q ++ g ++ f e ++ u ++ m := by
  rw [interp_append, interp_append, interp_chars, interp_chars, interp_one]
  simp

theorem interp_fields (hb : env "basic" = .dict b) {l : List Field} (hl : ∀ x ∈ l, x.1 ∉ dictMethods) :
    interp (valText t env) (symFields l) = fieldLines (fun k => shown t (entry b k)) l := by
  rw [symFields, interp_intercalate, fieldLines, interp_chars, List.map_map]
  congr 1
  refine List.map_congr_left fun x hx => ?_
  have h : valText t env (.missing (.attr (.var "basic") x.1) (.lit "-")) = shown t (entry b x.1) := by
    rw [valText, field_eval hb (hl x hx)]
    exact missing_text _
  rw [← h]
  exact interp_field_gen _ _ _ _ _ _ _ _

theorem fieldExprs_ok (hb : env "basic" = .dict b) {l : List Field} (hl : ∀ x ∈ l, x.1 ∉ dictMethods) :
    ∀ e ∈ fieldExprs l, ∃ v, eval env e = .ok v := by
  intro e he
  obtain ⟨x, hx, rfl⟩ := List.mem_map.1 he
  exact ⟨_, field_eval hb (hl x hx)⟩

/-- the statements of the first page: up to the type of the sensor, behind it up to the setup -/
def firstNodes : List Node := generalInfoTex.take 17
def lastNodes : List Node := (generalInfoTex.drop 18).take 7
def ccdNodes : List Node := match generalInfoTex.drop 17 with
  | .ite _ a _ :: _ => a
  | _ => []
def cmosNodes : List Node := match generalInfoTex.drop 17 with
  | .ite _ _ [.ite _ a _] :: _ => a
  | _ => []

theorem names_ok : (firstFields ++ lastFields ++ ccdFields ++ cmosFields).all (fun x => decide (x.1 ∉ dictMethods)) = true := by
  decide +kernel

theorem first_sym : firstNodes.all (leafIn (fieldExprs firstFields)) = true ∧ firstNodes.flatMap symNode =
    symChars "\\begin{minipage}[t]{0.975\\linewidth}\n\\begin{multicols}{2}\n".toList ++ symFields firstFields := by
  decide +kernel

theorem last_sym : lastNodes.all (leafIn (fieldExprs lastFields)) = true ∧ lastNodes.flatMap symNode =
    symFields lastFields ++ symChars "\n%%%%%%%%%% SETUP\n".toList := by
  decide +kernel

theorem ccd_sym : ccdNodes.all (leafIn (fieldExprs ccdFields)) = true ∧ ccdNodes.flatMap symNode = symFields ccdFields := by
  decide +kernel

theorem cmos_sym : cmosNodes.all (leafIn (fieldExprs cmosFields)) = true ∧ cmosNodes.flatMap symNode = symFields cmosFields := by
  decide +kernel

theorem generalInfo_eq : generalInfoTex = firstNodes ++ ([.ite (.eqStr (.attr (.var "basic") "sensor_type") "CCD") ccdNodes
    [.ite (.eqStr (.attr (.var "basic") "sensor_type") "CMOS") cmosNodes []]] ++ (lastNodes ++
    [.items "key" "value" (.var "setup") [.text "\\textsl{", .out (.var "key"), .text "} \\hfill ",
      .out (.missing (.var "value") (.lit "-")), .text "\n\\\\[1mm]\n"],
    .text "\\end{multicols}\n\\end{minipage}\n\\\\[5mm]\n", .loop "op" (.var "operation_points") entryNodes,
    .text "\n\n\\vfill\n\\begin{center}\n\\includegraphics[height=100mm,keepaspectratio]{",
    .out (.missing (.attr (.var "basic") "qe_plot") (.attr (.var "marketing") "missingplot")),
    .text "}\n\\end{center}"])) := rfl

theorem mem_names {l : List Field} (h : ∀ x ∈ l, x ∈ firstFields ++ lastFields ++ ccdFields ++ cmosFields) :
    ∀ x ∈ l, x.1 ∉ dictMethods := fun x hx =>
  of_decide_eq_true (List.all_eq_true.1 names_ok x (h x hx))

theorem first_ok (hb : env "basic" = .dict b) : render t env firstNodes =
    .ok ("\\begin{minipage}[t]{0.975\\linewidth}\n\\begin{multicols}{2}\n".toList ++
      fieldLines (fun k => shown t (entry b k)) firstFields) := by
  have hn := mem_names (l := firstFields) (fun x hx => by simp only [List.mem_append]; tauto)
  rw [render_sym (fieldExprs_ok hb hn) first_sym.1, first_sym.2, interp_append, interp_chars, interp_fields hb hn]

theorem last_ok (hb : env "basic" = .dict b) : render t env lastNodes =
    .ok (fieldLines (fun k => shown t (entry b k)) lastFields ++ "\n%%%%%%%%%% SETUP\n".toList) := by
  have hn := mem_names (l := lastFields) (fun x hx => by simp only [List.mem_append]; tauto)
  rw [render_sym (fieldExprs_ok hb hn) last_sym.1, last_sym.2, interp_append, interp_chars, interp_fields hb hn]

theorem ccd_ok (hb : env "basic" = .dict b) : render t env ccdNodes =
    .ok (fieldLines (fun k => shown t (entry b k)) ccdFields) := by
  have hn := mem_names (l := ccdFields) (fun x hx => by simp only [List.mem_append]; tauto)
  rw [render_sym (fieldExprs_ok hb hn) ccd_sym.1, ccd_sym.2, interp_fields hb hn]

theorem cmos_ok (hb : env "basic" = .dict b) : render t env cmosNodes =
    .ok (fieldLines (fun k => shown t (entry b k)) cmosFields) := by
  have hn := mem_names (l := cmosFields) (fun x hx => by simp only [List.mem_append]; tauto)
  rw [render_sym (fieldExprs_ok hb hn) cmos_sym.1, cmos_sym.2, interp_fields hb hn]

theorem type_cond (hb : env "basic" = .dict b) (s : String) : evalCond env (.eqStr (.attr (.var "basic") "sensor_type") s) =
    .ok ((entry b "sensor_type").eqStr s.toList) := by
  have h : eval env (.attr (.var "basic") "sensor_type") = .ok (entry b "sensor_type") :=
    eval_attr_ok.2 ⟨.dict b, by rw [eval, hb], attr_dict b _ (by decide)⟩
  rw [evalCond, h]; rfl

theorem sensor_ok (hb : env "basic" = .dict b) : render t env [.ite (.eqStr (.attr (.var "basic") "sensor_type") "CCD") ccdNodes
    [.ite (.eqStr (.attr (.var "basic") "sensor_type") "CMOS") cmosNodes []]] =
    .ok (sensorLines (fun k => shown t (entry b k)) (entry b "sensor_type")) := by
  rw [render_cons_ok]
  refine ⟨_, [], ?_, render_nil, (List.append_nil _).symm⟩
  rw [renderNode_ite_ok, type_cond hb, ccd_ok hb, render_cons_ok]
  simp only [renderNode_ite_ok, type_cond hb, cmos_ok hb, render_nil]
  generalize entry b "sensor_type" = v
  cases v with
  | str s =>
    simp only [sensorLines, Val.eqStr]
    by_cases h1 : s = "CCD".toList
    · exact .inl ⟨by rw [decide_eq_true h1], by rw [if_pos h1]⟩
    · refine .inr ⟨by rw [decide_eq_false h1], ?_⟩
      rw [if_neg h1]
      by_cases h2 : s = "CMOS".toList
      · exact ⟨_, _, .inl ⟨by rw [decide_eq_true h2], rfl⟩, rfl, by rw [if_pos h2, List.append_nil]⟩
      · exact ⟨_, _, .inr ⟨by rw [decide_eq_false h2], rfl⟩, rfl, by rw [if_neg h2, List.append_nil]⟩
  | _ => exact .inr ⟨rfl, _, _, .inr ⟨rfl, rfl⟩, rfl, rfl⟩

end Jinja
end Emva
