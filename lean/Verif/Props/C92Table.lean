import Verif.Props.C92Sheet

/-!
C92: the sheet of an operation point, the parts in their order.
-/
set_option autoImplicit false
set_option maxRecDepth 4000
namespace Emva
namespace Jinja
open SheetSpec Report
variable {t : Texts} {env : Env}

/-- a part of the results -/
def resPath (sec attr key : String) : Expr := Expr.path "op" ["results", sec, attr, key]

/-- the number of a row -/
def numberExpr (sec attr : String) (p : ℕ) (dash : Bool) : Expr :=
  if dash then .missingNumber (resPath sec attr "value") p else .percent p (resPath sec attr "value")

/-- where a part of the table is found in the template -/
def linePart : Line → Part
  | .title s => .fixed s
  | .name sec attr => .line "\\textbf{" [.out (resPath sec attr "short")] (if attr = "QE" then " }" else "}")
  | .row sec attr p dash .full => .line "\n" [.out (resPath sec attr "symbol"), .chars " &\n",
      .out (numberExpr sec attr p dash), .chars " &\n", .out (resPath sec attr "unit")] " "
  | .row sec attr p dash .wide => .line "\n" [.out (resPath sec attr "symbol"), .chars "  &\n",
      .out (numberExpr sec attr p dash), .chars " &\n", .out (resPath sec attr "unit")] " "
  | .row sec attr p dash .noUnit => .line "\n" [.out (resPath sec attr "symbol"), .chars " &\n",
      .out (numberExpr sec attr p dash)] " \\\\"
  | .row sec attr p dash .comment => .line "\n& % " [.out (resPath sec attr "symbol"), .chars " &\n",
      .out (numberExpr sec attr p dash), .chars " &\n", .out (resPath sec attr "unit")] " "
  | .row sec attr p dash .noSymbol => .line "\n&\n" [.out (numberExpr sec attr p dash), .chars " &\n",
      .out (resPath sec attr "unit")] " "

/-- where a plot is found in the template -/
def plotPart (name : String) : Part := .line "keepaspectratio]{" [.out (Expr.path "op" ["plots", name])] "}\n"

/-- the parts of the sheet between the settings and the other plots -/
def bodyPart : String ⊕ Line → Part
  | .inl name => plotPart name
  | .inr l => linePart l

theorem number_text {e : Expr} {v w : Val} {p : ℕ} {dash : Bool} (he : ∀ x, eval env e = .ok x → x = v)
    (h : eval env (if dash then .missingNumber e p else .percent p e) = .ok w) : ∃ s, w = .str s ∧ Number dash p v s := by
  have key : ∃ r, v.toR = some r ∧ ∃ s, w = .str s ∧
      (if dash then Report.missingNumber r p else percentF p r) = .ok s := by
    cases dash
    · simp only [Bool.false_eq_true, if_false] at h ⊢
      rw [eval] at h
      rcases hx : eval env e with x | x
      · rw [hx] at h; cases h
      · obtain rfl := he x hx
        rw [hx] at h
        simp only [bind, Except.bind, percent] at h
        rcases hr : x.toR with _ | r
        · rw [hr] at h; cases h
        · rw [hr] at h
          refine ⟨r, rfl, ?_⟩
          simp only at h
          rcases hp : percentF p r with y | y
          · rw [hp] at h; cases h
          · rw [hp] at h; cases h; exact ⟨y, rfl, rfl⟩
    · simp only [if_true] at h ⊢
      rw [eval] at h
      rcases hx : eval env e with x | x
      · rw [hx] at h; cases h
      · obtain rfl := he x hx
        rw [hx] at h
        simp only [bind, Except.bind, missingNumber] at h
        rcases hr : x.toR with _ | r
        · rw [hr] at h; cases h
        · rw [hr] at h
          refine ⟨r, rfl, ?_⟩
          simp only at h
          rcases hp : Report.missingNumber r p with y | y
          · rw [hp] at h; cases h
          · rw [hp] at h; cases h; exact ⟨y, rfl, rfl⟩
  obtain ⟨r, hr, s, rfl, hs⟩ := key
  refine ⟨s, rfl, ?_⟩
  cases v <;> simp only [Val.toR, Option.some.injEq, reduceCtorEq] at hr <;> subst hr <;> cases dash <;>
    simp only [Bool.false_eq_true, if_false, if_true, Report.missingNumber, inMissing, formatValue, percentF,
      Except.ok.injEq, reduceCtorEq] at hs <;> subst hs
  · exact ⟨rfl, rfl⟩
  · rfl
  · rfl
  · exact fmtFloat_text _ _
  · exact fmtFloat_text _ _

theorem number_ok {e : Expr} {v : Val} {p : ℕ} {dash : Bool} (he : eval env e = .ok v) (hv : CanShow dash v) : ∃ w, eval env (if dash then .missingNumber e p else .percent p e) = .ok w := by
  cases dash <;> cases v <;> simp [CanShow] at hv <;>
    simp [eval, he, bind, Except.bind, percent, missingNumber, Val.toR, percentF, formatValue, Report.missingNumber, inMissing]

/-- the names of the parts of a line are not methods of a dictionary -/
def lineNames : Line → Bool
  | .title _ => true
  | .name sec attr => decide (sec ∉ dictMethods) && decide (attr ∉ dictMethods)
  | .row sec attr _ _ _ => decide (sec ∉ dictMethods) && decide (attr ∉ dictMethods)

theorem res_eval {sec attr key : String} (h1 : sec ∉ dictMethods) (h2 : attr ∉ dictMethods) (h3 : key ∉ dictMethods)
    (x : Val) (h : eval env (resPath sec attr key) = .ok x) : x = look (env "op") ["results", sec, attr, key] := by
  refine eval_path ?_ h
  simp only [List.mem_cons, List.not_mem_nil, or_false]
  rintro k (rfl | rfl | rfl | rfl)
  · decide
  · exact h1
  · exact h2
  · exact h3

theorem symbol_ok : "symbol" ∉ dictMethods ∧ "unit" ∉ dictMethods ∧ "value" ∉ dictMethods ∧ "short" ∉ dictMethods := by
  decide

theorem items1 {e : Expr} {s : Str} : ItemsText t env [.out e] s ↔ ∃ v, eval env e = .ok v ∧ s = written t v := by
  simp only [ItemsText, Item.Text]
  constructor
  · rintro ⟨_, _, ⟨v, hv, rfl⟩, rfl, rfl⟩; exact ⟨v, hv, by simp⟩
  · rintro ⟨v, hv, rfl⟩; exact ⟨_, _, ⟨v, hv, rfl⟩, rfl, by simp⟩

theorem items3 {d e : Expr} {a : String} {s : Str} : ItemsText t env [.out d, .chars a, .out e] s ↔
    ∃ v w, eval env d = .ok v ∧ eval env e = .ok w ∧ s = written t v ++ a.toList ++ written t w := by
  simp only [ItemsText, Item.Text]
  constructor
  · rintro ⟨_, _, ⟨v, hv, rfl⟩, ⟨_, _, rfl, ⟨_, _, ⟨w, hw, rfl⟩, rfl, rfl⟩, rfl⟩, rfl⟩; exact ⟨v, w, hv, hw, by simp⟩
  · rintro ⟨v, w, hv, hw, rfl⟩
    exact ⟨_, _, ⟨v, hv, rfl⟩, ⟨_, _, rfl, ⟨_, _, ⟨w, hw, rfl⟩, rfl, rfl⟩, rfl⟩, by simp⟩

theorem items5 {d e f : Expr} {a b : String} {s : Str} : ItemsText t env [.out d, .chars a, .out e, .chars b, .out f] s ↔
    ∃ v w x, eval env d = .ok v ∧ eval env e = .ok w ∧ eval env f = .ok x ∧
      s = written t v ++ a.toList ++ written t w ++ b.toList ++ written t x := by
  rw [show ItemsText t env [.out d, .chars a, .out e, .chars b, .out f] s ↔ ∃ y z, (∃ v, eval env d = .ok v ∧ y = written t v) ∧
    (∃ p q, p = a.toList ∧ ItemsText t env [.out e, .chars b, .out f] q ∧ z = p ++ q) ∧ s = y ++ z from Iff.rfl]
  simp only [items3]
  constructor
  · rintro ⟨_, _, ⟨v, hv, rfl⟩, ⟨_, _, rfl, ⟨w, x, hw, hx, rfl⟩, rfl⟩, rfl⟩; exact ⟨v, w, x, hv, hw, hx, by simp⟩
  · rintro ⟨v, w, x, hv, hw, hx, rfl⟩
    exact ⟨_, _, ⟨v, hv, rfl⟩, ⟨_, _, rfl, ⟨w, x, hw, hx, rfl⟩, rfl⟩, by simp⟩

theorem full_gen {a b c p : String} {d e f : Expr} {s : Str} (h : Part.Text t env (.line p [.out d, .chars a, .out e, .chars b,
    .out f] c) s) : ∃ v w x, eval env d = .ok v ∧ eval env e = .ok w ∧ eval env f = .ok x ∧
      s = p.toList ++ written t v ++ a.toList ++ written t w ++ b.toList ++ written t x ++ c.toList := by
  obtain ⟨m, hm, rfl⟩ := h
  obtain ⟨v, w, x, hv, hw, hx, rfl⟩ := items5.1 hm
  exact ⟨v, w, x, hv, hw, hx, by simp⟩

theorem two_gen {a c p : String} {d e : Expr} {s : Str} (h : Part.Text t env (.line p [.out d, .chars a, .out e] c) s) :
    ∃ v w, eval env d = .ok v ∧ eval env e = .ok w ∧
      s = p.toList ++ written t v ++ a.toList ++ written t w ++ c.toList := by
  obtain ⟨m, hm, rfl⟩ := h
  obtain ⟨v, w, hv, hw, rfl⟩ := items3.1 hm
  exact ⟨v, w, hv, hw, by simp⟩

theorem line_text {l : Line} (hl : lineNames l = true) {s : Str} (h : (linePart l).Text t env s) :
    LineText t (env "op") l s := by
  obtain ⟨n1, n2, n3, n4⟩ := symbol_ok
  cases l with
  | title x => exact h
  | name sec attr =>
    simp only [lineNames, Bool.and_eq_true, decide_eq_true_eq] at hl
    obtain ⟨m, hm, rfl⟩ := h
    obtain ⟨v, hv, rfl⟩ := items1.1 hm
    obtain rfl := res_eval hl.1 hl.2 n4 v hv
    by_cases hq : attr = "QE"
    · exact ⟨" ".toList, .inr rfl, by rw [if_pos hq, show " }".toList = " ".toList ++ "}".toList by decide +kernel, List.append_assoc, List.append_assoc,
        List.append_assoc]⟩
    · exact ⟨[], .inl rfl, by rw [if_neg hq, List.append_nil]⟩
  | row sec attr p dash lay =>
    simp only [lineNames, Bool.and_eq_true, decide_eq_true_eq] at hl
    have he := res_eval (env := env) hl.1 hl.2 n3
    cases lay with
    | full =>
      obtain ⟨v, w, x, hv, hw, hx, rfl⟩ := full_gen h
      obtain ⟨y, rfl, hy⟩ := number_text he hw
      obtain rfl := res_eval hl.1 hl.2 n1 v hv
      obtain rfl := res_eval hl.1 hl.2 n2 x hx
      exact ⟨y, hy, rfl⟩
    | wide =>
      obtain ⟨v, w, x, hv, hw, hx, rfl⟩ := full_gen h
      obtain ⟨y, rfl, hy⟩ := number_text he hw
      obtain rfl := res_eval hl.1 hl.2 n1 v hv
      obtain rfl := res_eval hl.1 hl.2 n2 x hx
      exact ⟨y, hy, rfl⟩
    | comment =>
      obtain ⟨v, w, x, hv, hw, hx, rfl⟩ := full_gen h
      obtain ⟨y, rfl, hy⟩ := number_text he hw
      obtain rfl := res_eval hl.1 hl.2 n1 v hv
      obtain rfl := res_eval hl.1 hl.2 n2 x hx
      exact ⟨y, hy, rfl⟩
    | noUnit =>
      obtain ⟨v, w, hv, hw, rfl⟩ := two_gen h
      obtain ⟨y, rfl, hy⟩ := number_text he hw
      obtain rfl := res_eval hl.1 hl.2 n1 v hv
      exact ⟨y, hy, rfl⟩
    | noSymbol =>
      obtain ⟨w, x, hw, hx, rfl⟩ := two_gen h
      obtain ⟨y, rfl, hy⟩ := number_text he hw
      obtain rfl := res_eval hl.1 hl.2 n2 x hx
      exact ⟨y, hy, rfl⟩

theorem table_names : table.all lineNames = true := by decide +kernel

theorem plot_text {name : String} (hn : name ∉ dictMethods) {s : Str} (h : (plotPart name).Text t env s) :
    Plot t (env "op") name s := by
  obtain ⟨m, hm, rfl⟩ := h
  obtain ⟨v, hv, rfl⟩ := items1.1 hm
  obtain rfl := eval_path (by
    simp only [List.mem_cons, List.not_mem_nil, or_false]
    rintro k (rfl | rfl)
    · decide
    · exact hn) hv
  rfl

theorem plots_names : (summaryPlots ++ otherPlots).all (fun n => decide (n ∉ dictMethods)) = true := by decide +kernel

/-- the statements of the sheet before the settings -/
def titleNodes : List Node := .text "\n \t" :: opTex.take 11

/-- the statements of the sheet behind the settings -/
def bodyNodes : List Node := (opTex.drop 16).take 207

theorem body_order : inOrder ((summaryPlots.map Sum.inl ++ table.map Sum.inr).map bodyPart) (bodyNodes.map Tok.ofNode) = true := by
  decide +kernel

/-- the statements for the other plots -/
def otherNodes : List Node :=
  match opTex.drop 223 with
  | [.ite _ a _] => a
  | _ => []

/-- the statements for the sheet of an operation point -/
def sheetNodes : List Node := [.text "\n \t"] ++ opTex ++ [.text "\n"]

theorem sheetNodes_eq : sheetNodes = titleNodes ++ (opHeaderTex ++ (bodyNodes ++
    [.ite (.isFalse (.attr (.var "op") "summary_only")) otherNodes [], .text "\n"])) := rfl

theorem other_order : inOrder (otherPlots.map plotPart) (otherNodes.map Tok.ofNode) = true := by decide +kernel

/-- the wavelength -/
def wavelength : Expr := .missing (Expr.path "op" ["test_parameters", "Wavelength"]) (.lit "-")

/-- the two lines with the name of the operation point -/
def titleParts : List Part := [
  .line "\\newpage\n\\ReportSection{Operation Point: \\textbf{" [.out (Expr.path "op" ["name"]), .chars "} (@",
    .out wavelength] ")}",
  .line "\\textbf{" [.out (Expr.path "op" ["name"]), .chars "}\\label{", .out (Expr.path "op" ["id"]), .chars "}} (@",
    .out wavelength] " wavelength)}"]

theorem title_order : inOrder titleParts (titleNodes.map Tok.ofNode) = true := by decide +kernel

theorem missing_text (v : Val) : written t (missing (.str "-".toList) v) = shown t v := by cases v <;> rfl

theorem wavelength_text {v : Val} (h : eval env wavelength = .ok v) :
    written t v = shown t (look (env "op") ["test_parameters", "Wavelength"]) := by
  rw [wavelength, eval_missing_ok] at h
  obtain ⟨w, x, hw, hx, rfl⟩ := h
  obtain rfl := eval_path (by decide) hw
  rw [eval] at hx
  cases hx
  exact missing_text _

theorem title_gen {a b c d e f g : String} {s : Str} (h : Toks t env (titleNodes.map Tok.ofNode) s)
    (ho : inOrder [.line a [.out (Expr.path "op" ["name"]), .chars b, .out wavelength] c,
      .line d [.out (Expr.path "op" ["name"]), .chars e, .out (Expr.path "op" ["id"]), .chars f, .out wavelength] g]
      (titleNodes.map Tok.ofNode) = true) :
    InOrder [
      (fun x => x = a.toList ++ written t (look (env "op") ["name"]) ++ b.toList ++
        shown t (look (env "op") ["test_parameters", "Wavelength"]) ++ c.toList),
      (fun x => x = d.toList ++ written t (look (env "op") ["name"]) ++ e.toList ++ written t (look (env "op") ["id"]) ++
        f.toList ++ shown t (look (env "op") ["test_parameters", "Wavelength"]) ++ g.toList)] s := by
  let l : List (Part × (Str → Prop)) := [
    (.line a [.out (Expr.path "op" ["name"]), .chars b, .out wavelength] c,
      (fun x => x = a.toList ++ written t (look (env "op") ["name"]) ++ b.toList ++
        shown t (look (env "op") ["test_parameters", "Wavelength"]) ++ c.toList)),
    (.line d [.out (Expr.path "op" ["name"]), .chars e, .out (Expr.path "op" ["id"]), .chars f, .out wavelength] g,
      (fun x => x = d.toList ++ written t (look (env "op") ["name"]) ++ e.toList ++ written t (look (env "op") ["id"]) ++
        f.toList ++ shown t (look (env "op") ["test_parameters", "Wavelength"]) ++ g.toList))]
  refine inOrder_toks Prod.fst Prod.snd l ?_ _ s ho h
  simp only [l, List.mem_cons, List.not_mem_nil, or_false]
  rintro x (rfl | rfl) y hy
  · obtain ⟨v, w, hv, hw, rfl⟩ := two_gen hy
    rw [eval_path (by decide) hv, wavelength_text hw]
  · obtain ⟨v, w, x, hv, hw, hx, rfl⟩ := full_gen hy
    rw [eval_path (by decide) hv, eval_path (by decide) hw, wavelength_text hx]

theorem sheet_of_render {s : Str} (h : render t env sheetNodes = .ok s) : Sheet t (env "op") s := by
  rw [sheetNodes_eq, render_append_ok] at h
  obtain ⟨a, _, ha, h, rfl⟩ := h
  rw [render_append_ok] at h
  obtain ⟨hd, _, hhd, h, rfl⟩ := h
  rw [render_append_ok] at h
  obtain ⟨b, _, hb, h, rfl⟩ := h
  rw [render_cons_ok] at h
  obtain ⟨c, _, hc, h, rfl⟩ := h
  rw [render_cons_ok] at h
  obtain ⟨_, _, h1, h2, rfl⟩ := h
  rw [renderNode_text] at h1
  cases h1
  rw [render_nil] at h2
  cases h2
  obtain ⟨settings, params, hset, hpar, rfl⟩ := header_ok.1 hhd
  refine ⟨a, b, c, settings, params, hset, hpar, by simp only [List.append_assoc, List.append_nil],
    title_gen (toks_of_render ha) title_order, ?_, ?_⟩
  · have := render_inOrder bodyPart (fun x : String ⊕ Line => match x with
      | .inl name => Plot t (env "op") name
      | .inr l => LineText t (env "op") l) (l := summaryPlots.map Sum.inl ++ table.map Sum.inr) (t := t) (env := env) ?_
      body_order hb
    · rw [List.map_append, List.map_map, List.map_map] at this
      exact this
    · intro x hx y hy
      simp only [List.mem_append, List.mem_map] at hx
      rcases hx with ⟨n, hn, rfl⟩ | ⟨l, hl, rfl⟩
      · exact plot_text (of_decide_eq_true (List.all_eq_true.1 plots_names n (by simp [hn]))) hy
      · exact line_text (List.all_eq_true.1 table_names l hl) hy
  · rw [renderNode_ite_ok] at hc
    have hv : ∀ r, evalCond env (.isFalse (.attr (.var "op") "summary_only")) = .ok r →
        r = !given (look (env "op") ["summary_only"]) := by
      intro r hr
      rw [evalCond] at hr
      rcases hv : eval env (.attr (.var "op") "summary_only") with x | x
      · rw [hv] at hr; cases hr
      · rw [hv] at hr
        obtain rfl := eval_path (ks := ["summary_only"]) (by decide) hv
        rw [← truthy_eq]
        cases hr; rfl
    rcases hc with ⟨hc, hr⟩ | ⟨hc, hr⟩
    · have := hv _ hc
      rw [if_neg (by intro h0; rw [h0] at this; cases this)]
      exact render_inOrder plotPart (Plot t (env "op")) (fun n hn y hy =>
        plot_text (of_decide_eq_true (List.all_eq_true.1 plots_names n (by simp [hn]))) hy) other_order hr
    · have := hv _ hc
      rw [if_pos (by cases h0 : given (look (env "op") ["summary_only"]) <;> rw [h0] at this <;> simp at this ⊢)]
      rw [render_nil] at hr
      cases hr; rfl

end Jinja
end Emva
