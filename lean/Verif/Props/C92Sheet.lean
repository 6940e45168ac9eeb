import Verif.Lemmas.JinjaOrder

/-!
C92: the texts of an operation point, its entry on the first page and its sheet.
-/
set_option autoImplicit false
set_option maxRecDepth 4000
namespace Emva
namespace Jinja
open SheetSpec Report
variable {t : Texts} {env : Env}

/-- the variables of the templates of one operation point -/
def opEnv (op : Val) : Env := fun n => if n = "op" then op else .undefined

theorem concatM_all {α : Type} {f : α → Except PyErr Str} {g : α → Str} (l : List α) (h : ∀ x ∈ l, f x = .ok (g x)) :
    concatM f l = .ok (l.map g).flatten := by
  rw [concatM_ok]
  refine ⟨l.map g, ?_, rfl⟩
  rw [List.map_map]
  exact List.map_congr_left h

theorem five {a b c : String} {d e : Expr} {x y : Val} (hd : eval env d = .ok x) (he : eval env e = .ok y) :
    render t env [.text a, .out d, .text b, .out e, .text c] =
      .ok (a.toList ++ (written t x ++ (b.toList ++ (written t y ++ c.toList)))) := by
  simp [render_cons, renderNode, hd, he, bind, Except.bind, text_eq]

theorem hfill_space : "} \\hfill ".toList = "} \\hfill".toList ++ " ".toList := by decide +kernel

theorem mm_newline : "\n\\\\[1mm]\n".toList = "\n\\\\[1mm]".toList ++ "\n".toList := by decide +kernel

theorem line_eq {a b b' c c' u n : String} (key val : Str) (hb : b.toList = b'.toList ++ u.toList)
    (hc : c.toList = c'.toList ++ n.toList) : a.toList ++ (key ++ (b.toList ++ (val ++ c.toList))) =
      a.toList ++ key ++ b'.toList ++ u.toList ++ val ++ [] ++ c'.toList ++ n.toList := by
  rw [hb, hc]; simp

theorem plain_line (key : Str) (v : Val) : render t ((env.set "key" (.str key)).set "value" v)
    [.text "\\textsl{", .out (.var "key"), .text "} \\hfill ", .out (.var "value"), .text "\n\\\\[1mm]\n"] =
    .ok (infoLine key " ".toList (written t v) [] ++ "\n".toList) := by
  have h1 : eval ((env.set "key" (.str key)).set "value" v) (.var "key") = .ok (.str key) := by
    rw [eval, Env.set, if_neg (by decide), Env.set, if_pos rfl]
  have h2 : eval ((env.set "key" (.str key)).set "value" v) (.var "value") = .ok v := by
    rw [eval, Env.set, if_pos rfl]
  exact (five h1 h2).trans (congrArg Except.ok (line_eq key (written t v) hfill_space mm_newline))

theorem missing_line (key : Str) (v : Val) : render t ((env.set "key" (.str key)).set "value" v)
    [.text "\\textsl{", .out (.var "key"), .text "} \\hfill ", .out (.missing (.var "value") (.lit "-")),
      .text "\n\\\\[1mm]\n"] =
    .ok (infoLine key " ".toList (shown t v) [] ++ "\n".toList) := by
  have h : written t (missing (.str "-".toList) v) = shown t v := by cases v <;> rfl
  have h1 : eval ((env.set "key" (.str key)).set "value" v) (.var "key") = .ok (.str key) := by
    rw [eval, Env.set, if_neg (by decide), Env.set, if_pos rfl]
  have h2 : eval ((env.set "key" (.str key)).set "value" v) (.missing (.var "value") (.lit "-")) =
      .ok (missing (.str "-".toList) v) := by
    rw [eval, eval, eval, Env.set, if_pos rfl]; rfl
  exact (five h1 h2).trans (h ▸ congrArg Except.ok (line_eq key _ hfill_space mm_newline))

theorem plain_lines (d : List (Str × Val)) : concatM (fun kv : Str × Val =>
    render t ((env.set "key" (.str kv.1)).set "value" kv.2)
    [.text "\\textsl{", .out (.var "key"), .text "} \\hfill ", .out (.var "value"), .text "\n\\\\[1mm]\n"]) d =
    .ok (dictLines (written t) d) :=
  concatM_all d fun _ _ => plain_line _ _

theorem missing_lines (d : List (Str × Val)) : concatM (fun kv : Str × Val =>
    render t ((env.set "key" (.str kv.1)).set "value" kv.2)
    [.text "\\textsl{", .out (.var "key"), .text "} \\hfill ", .out (.missing (.var "value") (.lit "-")),
      .text "\n\\\\[1mm]\n"]) d =
    .ok (dictLines (shown t) d) :=
  concatM_all d fun _ _ => missing_line _ _

theorem attr_items {v : Val} {name : String} (hn : name ∉ dictMethods) {l : List (Str × Val)} :
    (∃ w, v.attr name = .ok w ∧ w.items = .ok l) ↔ look v [name] = .dict l := by
  have e : look v [name] = SheetSpec.get v name := rfl
  rw [e]
  constructor
  · rintro ⟨w, h1, h2⟩
    rw [← (look_attr hn h1).1]
    cases w <;> simp_all [Val.items]
  · intro h
    cases v <;> simp_all [SheetSpec.get, Val.attr, entry, Val.items]

theorem op_attr {name : String} {w : Val} : eval env (.attr (.var "op") name) = .ok w ↔ (env "op").attr name = .ok w := by
  rw [eval_attr_ok]
  simp [eval]

theorem header_gen {a b c : String} {s : Str} : render t env [.text a,
      .items "key" "value" (.attr (.var "op") "camera_settings") [.text "\\textsl{", .out (.var "key"), .text "} \\hfill ",
      .out (.var "value"), .text "\n\\\\[1mm]\n"], .text b,
      .items "key" "value" (.attr (.var "op") "test_parameters") [.text "\\textsl{", .out (.var "key"), .text "} \\hfill ",
      .out (.var "value"), .text "\n\\\\[1mm]\n"], .text c] = .ok s ↔
    ∃ settings params, look (env "op") ["camera_settings"] = .dict settings ∧
      look (env "op") ["test_parameters"] = .dict params ∧
      s = a.toList ++ dictLines (written t) settings ++ b.toList ++ dictLines (written t) params ++ c.toList := by
  have h1 : ∀ l, _ := fun l => attr_items (v := env "op") (name := "camera_settings") (by decide) (l := l)
  have h2 : ∀ l, _ := fun l => attr_items (v := env "op") (name := "test_parameters") (by decide) (l := l)
  simp only [render_cons_ok, renderNode_text, renderNode_items_ok, op_attr, plain_lines, render_nil, Except.ok.injEq]
  constructor
  · rintro ⟨_, _, rfl, ⟨_, _, ⟨v, l, hv, hl, rfl⟩, ⟨_, _, rfl, ⟨_, _, ⟨w, m, hw, hm, rfl⟩, ⟨_, _, rfl, rfl, rfl⟩, rfl⟩, rfl⟩, rfl⟩,
      rfl⟩
    exact ⟨l, m, (h1 l).1 ⟨v, hv, hl⟩, (h2 m).1 ⟨w, hw, hm⟩, by simp only [List.append_assoc, List.append_nil]⟩
  · rintro ⟨l, m, hl, hm, rfl⟩
    obtain ⟨v, hv, hl⟩ := (h1 l).2 hl
    obtain ⟨w, hw, hm⟩ := (h2 m).2 hm
    exact ⟨_, _, rfl, ⟨_, _, ⟨v, l, hv, hl, rfl⟩, ⟨_, _, rfl, ⟨_, _, ⟨w, m, hw, hm, rfl⟩, ⟨_, _, rfl, rfl, rfl⟩, rfl⟩, rfl⟩,
      rfl⟩, by simp only [List.append_assoc, List.append_nil]⟩

theorem header_ok {s : Str} : render t env opHeaderTex = .ok s ↔
    ∃ settings params, look (env "op") ["camera_settings"] = .dict settings ∧
      look (env "op") ["test_parameters"] = .dict params ∧ s = headerText t settings params := header_gen

/-- the statements for an operation point on the first page -/
def entryNodes : List Node :=
  [.text "\n\t\\underline{\\textsl{Operation Point: \\textbf{",
  .out (.attr (.var "op") "name"),
  .text "} (Page \\pageref{",
  .out (.attr (.var "op") "id"),
  .text "})}}\n\n \t"] ++ opHeaderTex ++ [.text "\n\\\\[5mm]\n"]

theorem dict_attr {v : Val} {name k : String} {d : List (Str × Val)} (hk : k ∉ dictMethods) (h : look v [name] = .dict d) :
    v.attr k = .ok (look v [k]) := by
  have e : ∀ k, look v [k] = SheetSpec.get v k := fun _ => rfl
  rw [e] at h ⊢
  cases v <;> simp_all [SheetSpec.get, Val.attr, entry]

theorem entry_gen {a b c d : String} {s : Str} : render t env ([.text a, .out (.attr (.var "op") "name"), .text b,
      .out (.attr (.var "op") "id"), .text c] ++ opHeaderTex ++ [.text d]) = .ok s ↔
    ∃ settings params, look (env "op") ["camera_settings"] = .dict settings ∧
      look (env "op") ["test_parameters"] = .dict params ∧
      s = a.toList ++ written t (look (env "op") ["name"]) ++ b.toList ++ written t (look (env "op") ["id"]) ++ c.toList ++
        headerText t settings params ++ d.toList := by
  simp only [render_append_ok, render_cons_ok, renderNode_text, renderNode_out_ok, op_attr, header_ok, render_nil,
    Except.ok.injEq]
  constructor
  · rintro ⟨_, _, ⟨_, _, ⟨_, _, rfl, ⟨_, _, ⟨v, hv, rfl⟩, ⟨_, _, rfl, ⟨_, _, ⟨w, hw, rfl⟩, ⟨_, _, rfl, rfl, rfl⟩, rfl⟩, rfl⟩, rfl⟩, rfl⟩,
      ⟨l, m, hl, hm, rfl⟩, rfl⟩, ⟨_, _, rfl, rfl, rfl⟩, rfl⟩
    refine ⟨l, m, hl, hm, ?_⟩
    rw [dict_attr (by decide) hl] at hv hw
    cases hv; cases hw
    simp only [List.append_assoc, List.append_nil]
  · rintro ⟨l, m, hl, hm, rfl⟩
    exact ⟨_, _, ⟨_, _, ⟨_, _, rfl, ⟨_, _, ⟨_, dict_attr (by decide) hl, rfl⟩, ⟨_, _, rfl, ⟨_, _, ⟨_, dict_attr (by decide) hl, rfl⟩,
      ⟨_, _, rfl, rfl, rfl⟩, rfl⟩, rfl⟩, rfl⟩, rfl⟩, ⟨l, m, hl, hm, rfl⟩, rfl⟩, ⟨_, _, rfl, rfl, rfl⟩, by simp only [List.append_assoc, List.append_nil]⟩

theorem entry_ok {s : Str} : render t env entryNodes = .ok s ↔ SheetSpec.Entry t (env "op") s := entry_gen

end Jinja
end Emva
