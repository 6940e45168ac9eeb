import Verif.Props.C92First

/-!
C92: the text of a report.
-/
set_option autoImplicit false
set_option maxRecDepth 4000
namespace Emva
namespace Jinja
open SheetSpec Report
variable {t : Texts} {env : Env}

theorem concatM_forall {α : Type} {f : α → Except PyErr Str} {l : List α} {s : Str} : concatM f l = .ok s ↔
    ∃ ss : List Str, List.Forall₂ (fun x y => f x = .ok y) l ss ∧ s = ss.flatten := by
  rw [concatM_ok]
  have : ∀ ss : List Str, l.map f = ss.map .ok ↔ List.Forall₂ (fun x y => f x = .ok y) l ss := by
    induction l with
    | nil => intro ss; cases ss <;> simp
    | cons x l ih => intro ss; cases ss <;> simp [ih]
  simp only [this]

theorem loop_ok {ops : List Val} (ho : env "operation_points" = .list ops) {body : List Node} {R : Val → Str → Prop}
    (hR : ∀ op s, render t (env.set "op" op) body = .ok s ↔ R op s) {s : Str} :
    renderNode t env (.loop "op" (.var "operation_points") body) = .ok s ↔
      ∃ ss : List Str, List.Forall₂ R ops ss ∧ s = ss.flatten := by
  rw [renderNode_loop_ok]
  have h1 : ∀ v l, (eval env (.var "operation_points") = .ok v ∧ v.elems = .ok l) ↔ v = .list ops ∧ l = ops := by
    intro v l
    rw [eval, ho]
    constructor
    · rintro ⟨h, h'⟩; cases h; cases h'; exact ⟨rfl, rfl⟩
    · rintro ⟨rfl, rfl⟩; exact ⟨rfl, rfl⟩
  constructor
  · rintro ⟨v, l, hv, hl, h⟩
    obtain ⟨rfl, rfl⟩ := (h1 v l).1 ⟨hv, hl⟩
    obtain ⟨ss, h', rfl⟩ := concatM_forall.1 h
    exact ⟨ss, h'.imp fun _ _ h => (hR _ _).1 h, rfl⟩
  · rintro ⟨ss, h, rfl⟩
    obtain ⟨hv, hl⟩ := (h1 _ _).2 ⟨rfl, rfl⟩
    exact ⟨_, _, hv, hl, concatM_forall.2 ⟨ss, h.imp fun _ _ h => (hR _ _).2 h, rfl⟩⟩

theorem optional_ok {a c : String} {e : Expr} {v : Val} (he : eval env e = .ok v) :
    renderNode t env (.ite (.isTrue e) [.text a, .out e, .text c] []) =
      .ok (if given v then a.toList ++ written t v ++ c.toList else []) := by
  have hc : evalCond env (.isTrue e) = .ok (given v) := by rw [evalCond, he, ← truthy_eq]; rfl
  rw [renderNode_ite_ok, hc]
  cases given v
  · exact .inr ⟨rfl, by rw [render_nil]; rfl⟩
  · refine .inl ⟨rfl, ?_⟩
    simp only [render_cons_ok, renderNode_text, renderNode_out_ok, render_nil, Except.ok.injEq]
    exact ⟨_, _, rfl, ⟨_, _, ⟨v, he, rfl⟩, ⟨_, _, rfl, rfl, rfl⟩, rfl⟩, by simp⟩

/-- the sheet of an operation point in the report -/
def SheetText (t : Texts) (op : Val) (s : Str) : Prop := render t (opEnv op) sheetNodes = .ok s

theorem sheet_env (op : Val) : render t (env.set "op" op) sheetNodes = render t (opEnv op) sheetNodes :=
  render_uses (vs := ["op"]) (fun v hv => by
    obtain rfl := List.mem_singleton.1 hv
    rw [Env.set, if_pos rfl, opEnv, if_pos rfl]) _ (by decide +kernel)

theorem entry_env (op : Val) (s : Str) : render t (env.set "op" op) entryNodes = .ok s ↔ SheetSpec.Entry t op s := by
  rw [entry_ok, Env.set, if_pos rfl]

theorem sure {n : Node} {a : Str} (h : renderNode t env n = .ok a) {l : List Node} {s : Str} :
    render t env (n :: l) = .ok s ↔ ∃ x, render t env l = .ok x ∧ s = a ++ x := by
  rw [render_cons_ok, h]
  constructor
  · rintro ⟨_, x, h1, h2, rfl⟩; cases h1; exact ⟨x, h2, rfl⟩
  · rintro ⟨x, h2, rfl⟩; exact ⟨_, x, rfl, h2, rfl⟩

theorem sure_append {l m : List Node} {a : Str} (h : render t env l = .ok a) {s : Str} :
    render t env (l ++ m) = .ok s ↔ ∃ x, render t env m = .ok x ∧ s = a ++ x := by
  rw [render_append_ok, h]
  constructor
  · rintro ⟨_, x, h1, h2, rfl⟩; cases h1; exact ⟨x, h2, rfl⟩
  · rintro ⟨x, h2, rfl⟩; exact ⟨_, x, rfl, h2, rfl⟩

theorem sure_loop {n : Node} {R : Val → Str → Prop} {ops : List Val} (h : ∀ a, renderNode t env n = .ok a ↔
    ∃ ss : List Str, List.Forall₂ R ops ss ∧ a = ss.flatten) {l : List Node} {s : Str} :
    render t env (n :: l) = .ok s ↔ ∃ ss : List Str, List.Forall₂ R ops ss ∧ ∃ x, render t env l = .ok x ∧
      s = ss.flatten ++ x := by
  rw [render_cons_ok]
  simp only [h]
  constructor
  · rintro ⟨_, x, ⟨ss, h1, rfl⟩, h2, rfl⟩; exact ⟨ss, h1, x, h2, rfl⟩
  · rintro ⟨ss, h1, x, h2, rfl⟩; exact ⟨_, x, ⟨ss, h1, rfl⟩, h2, rfl⟩

theorem node_of_one {n : Node} {a : Str} (h : render t env [n] = .ok a) : renderNode t env n = .ok a := by
  obtain ⟨x, y, h1, h2, rfl⟩ := render_cons_ok.1 h
  rw [render_nil] at h2
  cases h2
  rw [h1, List.append_nil]

theorem qe_ok {m b : List (Str × Val)} (hm : env "marketing" = .dict m) (hb : env "basic" = .dict b) :
    renderNode t env (.out (.missing (.attr (.var "basic") "qe_plot") (.attr (.var "marketing") "missingplot"))) =
      .ok (qePlot t m b) := by
  rw [renderNode_out_ok]
  refine ⟨missing (entry m "missingplot") (entry b "qe_plot"), eval_missing_ok.2 ⟨_, _,
    eval_attr_ok.2 ⟨.dict b, by rw [eval, hb], attr_dict b _ (by decide)⟩,
    eval_attr_ok.2 ⟨.dict m, by rw [eval, hm], attr_dict m _ (by decide)⟩, rfl⟩, ?_⟩
  rw [qePlot]
  generalize entry b "qe_plot" = v
  cases v <;> rfl

theorem setup_ok {st : List (Str × Val)} (hs : env "setup" = .dict st) :
    renderNode t env (.items "key" "value" (.var "setup") [.text "\\textsl{", .out (.var "key"), .text "} \\hfill ",
      .out (.missing (.var "value") (.lit "-")), .text "\n\\\\[1mm]\n"]) = .ok (dictLines (shown t) st) := by
  rw [renderNode_items_ok]
  exact ⟨.dict st, st, by rw [eval, hs], rfl, missing_lines st⟩

theorem report_gen {m b st : List (Str × Val)} {ops : List Val} {cp : Val} (hm : env "marketing" = .dict m)
    (hb : env "basic" = .dict b) (hs : env "setup" = .dict st) (ho : env "operation_points" = .list ops)
    (hc : env "cover_page" = cp) {r0 w1 w2 r1 p1 p2 r2 q1 q2 q3 z e : String} {s : Str} :
    render t env ([.text r0, .ite (.isTrue (.attr (.var "marketing") "watermark")) [.text w1,
        .out (.attr (.var "marketing") "watermark"), .text w2] [], .text r1,
      .ite (.isTrue (.var "cover_page")) [.text p1, .out (.var "cover_page"), .text p2] [], .text r2] ++
      (firstNodes ++ ([.ite (.eqStr (.attr (.var "basic") "sensor_type") "CCD") ccdNodes
        [.ite (.eqStr (.attr (.var "basic") "sensor_type") "CMOS") cmosNodes []]] ++ (lastNodes ++
      [.items "key" "value" (.var "setup") [.text "\\textsl{", .out (.var "key"), .text "} \\hfill ",
        .out (.missing (.var "value") (.lit "-")), .text "\n\\\\[1mm]\n"],
      .text q1, .loop "op" (.var "operation_points") entryNodes, .text q2,
      .out (.missing (.attr (.var "basic") "qe_plot") (.attr (.var "marketing") "missingplot")), .text q3]))) ++
      [.text z, .loop "op" (.var "operation_points") sheetNodes, .text e]) = .ok s ↔
    ∃ entries sheets, List.Forall₂ (SheetSpec.Entry t) ops entries ∧ List.Forall₂ (SheetText t) ops sheets ∧
      s = r0.toList ++ (if given (entry m "watermark") then w1.toList ++ written t (entry m "watermark") ++ w2.toList else []) ++
        r1.toList ++ (if given cp then p1.toList ++ written t cp ++ p2.toList else []) ++
        (r2.toList ++ "\\begin{minipage}[t]{0.975\\linewidth}\n\\begin{multicols}{2}\n".toList) ++ basicLines t b ++
        "\n%%%%%%%%%% SETUP\n".toList ++ dictLines (shown t) st ++ q1.toList ++ entries.flatten ++ q2.toList ++
        qePlot t m b ++ (q3.toList ++ z.toList) ++ sheets.flatten ++ e.toList := by
  have hw : eval env (.attr (.var "marketing") "watermark") = .ok (entry m "watermark") :=
    eval_attr_ok.2 ⟨.dict m, by rw [eval, hm], attr_dict m _ (by decide)⟩
  have hcp : eval env (.var "cover_page") = .ok cp := by rw [eval, hc]
  have hent := fun s => loop_ok (t := t) (env := env) (s := s) ho (body := entryNodes) (R := SheetSpec.Entry t) entry_env
  have hsh := fun s => loop_ok (t := t) (env := env) (s := s) ho (body := sheetNodes) (R := SheetText t)
    (fun op s => by rw [sheet_env, SheetText])
  rw [basicLines]
  generalize hy : "\\begin{minipage}[t]{0.975\\linewidth}\n\\begin{multicols}{2}\n".toList = y
  generalize hz : "\n%%%%%%%%%% SETUP\n".toList = su
  have hfirst := first_ok (t := t) hb
  have hlast := last_ok (t := t) hb
  rw [hy] at hfirst
  rw [hz] at hlast
  simp only [List.cons_append, List.append_assoc, sure_append hfirst, sure_append hlast, sure (renderNode_text _), sure (optional_ok hw),
    sure (optional_ok hcp), List.nil_append, sure (setup_ok hs), sure (qe_ok hm hb),
    sure (node_of_one (sensor_ok hb)), sure_loop hent, sure_loop hsh, render_nil, Except.ok.injEq]
  constructor
  · rintro ⟨_, ⟨_, ⟨_, ⟨_, ⟨_, ⟨_, ⟨_, ⟨_, ⟨_, ⟨_, ⟨entries, h1, _, ⟨_, ⟨_, ⟨_, ⟨_, ⟨sheets, h2, _, ⟨_, rfl, rfl⟩, rfl⟩, rfl⟩, rfl⟩, rfl⟩, rfl⟩, rfl⟩,
      rfl⟩, rfl⟩, rfl⟩, rfl⟩, rfl⟩, rfl⟩, rfl⟩, rfl⟩, rfl⟩, rfl⟩
    exact ⟨entries, sheets, h1, h2, by simp⟩
  · rintro ⟨entries, sheets, h1, h2, rfl⟩
    exact ⟨_, ⟨_, ⟨_, ⟨_, ⟨_, ⟨_, ⟨_, ⟨_, ⟨_, ⟨_, ⟨entries, h1, _, ⟨_, ⟨_, ⟨_, ⟨_, ⟨sheets, h2, _, ⟨_, rfl, rfl⟩, rfl⟩, rfl⟩, rfl⟩, rfl⟩, rfl⟩, rfl⟩,
      rfl⟩, rfl⟩, rfl⟩, rfl⟩, rfl⟩, rfl⟩, rfl⟩, rfl⟩, rfl⟩, by simp⟩

/-- a text of the template -/
def textAt (i : ℕ) : String :=
  match reportTex[i]? with
  | some (.text s) => s
  | _ => ""

theorem reportTex_eq : reportTex = [.text (textAt 0), .ite (.isTrue (.attr (.var "marketing") "watermark"))
      [.text "\n\\usepackage[color={red!30}, fontsize=96pt, text={", .out (.attr (.var "marketing") "watermark"),
        .text "}]{draftwatermark}\n"] [], .text (textAt 2),
      .ite (.isTrue (.var "cover_page")) [.text "\n\\input{", .out (.var "cover_page"), .text "}\n"] [], .text (textAt 4)] ++
    generalInfoTex ++ [.text "\n", .loop "op" (.var "operation_points") sheetNodes, .text "\n\n\\end{document}"] := rfl

/-- the variables of the template of the report -/
def reportEnv (g : Generator) : Env := fun n => if n = "marketing" then .dict g.marketing
  else if n = "basic" then .dict g.basic else if n = "setup" then .dict g.setup
  else if n = "operation_points" then .list g.ops else if n = "cover_page" then g.coverPage else .undefined

theorem reportEnv_eq (g : Generator) : reportEnv g "marketing" = .dict g.marketing ∧ reportEnv g "basic" = .dict g.basic ∧
    reportEnv g "setup" = .dict g.setup ∧ reportEnv g "operation_points" = .list g.ops ∧
    reportEnv g "cover_page" = g.coverPage := by
  unfold reportEnv
  refine ⟨?_, ?_, ?_, ?_, ?_⟩
  · rw [if_pos rfl]
  · rw [if_neg (by decide), if_pos rfl]
  · rw [if_neg (by decide), if_neg (by decide), if_pos rfl]
  · rw [if_neg (by decide), if_neg (by decide), if_neg (by decide), if_pos rfl]
  · rw [if_neg (by decide), if_neg (by decide), if_neg (by decide), if_neg (by decide), if_pos rfl]

/-- Reading the characters off the literals; evaluating `String.toList` on them takes too much memory. -/
theorem textAt_chars : ∃ a b c : List Char, textAt 0 = String.ofList a ∧ textAt 2 = String.ofList b ∧ textAt 4 = String.ofList c ∧
    "\\documentclass".toList.isPrefixOf a = true ∧ subIn "\\begin{document}".toList b = true ∧
    subIn "\\textbf{EMVA\\,1288 Datasheet}".toList c = true :=
  ⟨_, _, _, rfl, rfl, rfl, by decide +kernel, by decide +kernel, by decide +kernel⟩

theorem textAt_ok : "\\documentclass".toList.isPrefixOf (textAt 0).toList = true ∧
    subIn "\\begin{document}".toList (textAt 2).toList = true ∧
    subIn "\\textbf{EMVA\\,1288 Datasheet}".toList (textAt 4).toList = true := by
  obtain ⟨a, b, c, ha, hb, hc, h⟩ := textAt_chars
  have ha' : (textAt 0).toList = a := by rw [ha]; exact String.toList_ofList
  have hb' : (textAt 2).toList = b := by rw [hb]; exact String.toList_ofList
  have hc' : (textAt 4).toList = c := by rw [hc]; exact String.toList_ofList
  rw [ha', hb', hc']
  exact h

end Jinja

open Jinja SheetSpec

/-- C92: the text of the report.  There are texts `c0`, `c1` and `c2` that do not depend on anything, and for each operation
point a sheet that depends on nothing but the operation point (`S`), so that the text consists of these texts, the watermark,
the cover page, the basic information, the setup, the entries of the operation points in their order, the plot of the quantum
efficiency and the sheets of the operation points in their order.  The sheet says what `Sheet` asks for, and there is one
exactly if the operation point is complete; otherwise there is no report. -/
theorem C92_report : ∃ c0 c1 c2 : Str, "\\documentclass".toList <+: c0 ∧ "\\begin{document}".toList <:+: c1 ∧
    "\\textbf{EMVA\\,1288 Datasheet}".toList <:+: c2 ∧ ∀ t : Texts, ∃ S : Val → Str → Prop,
    (∀ op s, S op s → Sheet t op s) ∧ (∀ op s s', S op s → S op s' → s = s') ∧ (∀ op, (∃ s, S op s) ↔ Complete op) ∧
    ∀ (g : Generator) (s : Str), report t g = .ok s ↔ ∃ entries sheets,
      List.Forall₂ (SheetSpec.Entry t) g.ops entries ∧ List.Forall₂ S g.ops sheets ∧
      s = c0 ++ SheetSpec.watermark t (entry g.marketing "watermark") ++ c1 ++ cover t g.coverPage ++ c2 ++
        basicLines t g.basic ++ "\n%%%%%%%%%% SETUP\n".toList ++ dictLines (shown t) g.setup ++
        "\\end{multicols}\n\\end{minipage}\n\\\\[5mm]\n".toList ++ entries.flatten ++
        "\n\n\\vfill\n\\begin{center}\n\\includegraphics[height=100mm,keepaspectratio]{".toList ++
        qePlot t g.marketing g.basic ++ ("}\n\\end{center}".toList ++ "\n".toList) ++ sheets.flatten ++
        "\n\n\\end{document}".toList := by
  refine ⟨(textAt 0).toList, (textAt 2).toList,
    (textAt 4).toList ++ "\\begin{minipage}[t]{0.975\\linewidth}\n\\begin{multicols}{2}\n".toList,
    List.isPrefixOf_iff_prefix.1 textAt_ok.1, infix_of_subIn textAt_ok.2.1,
    (infix_of_subIn textAt_ok.2.2).trans (List.prefix_append _ _).isInfix, fun t => ⟨SheetText t, ?_, ?_, ?_, ?_⟩⟩
  · intro op s h
    have := sheet_of_render h
    rwa [opEnv, if_pos rfl] at this
  · intro op s s' h h'
    rw [SheetText] at h h'
    rw [h] at h'
    exact Except.ok.inj h'
  · intro op
    have := sheet_complete (t := t) (env := opEnv op)
    rwa [opEnv, if_pos rfl] at this
  · intro g s
    obtain ⟨h1, h2, h3, h4, h5⟩ := reportEnv_eq g
    exact report_gen h1 h2 h3 h4 h5

end Emva
