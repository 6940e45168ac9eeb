import Verif.Props.C92Table

/-!
C92: when the sheet of an operation point can be written.
-/
set_option autoImplicit false
set_option maxRecDepth 4000
namespace Emva
namespace Jinja
open SheetSpec Report
variable {t : Texts} {env : Env}

/-- what the sheet shows of a row -/
def rowExprs : Line → List Expr
  | .row sec attr p dash _ => [resPath sec attr "short", resPath sec attr "symbol", resPath sec attr "unit",
      numberExpr sec attr p dash]
  | _ => []

/-- what the sheet shows -/
def sheetExprs : List Expr :=
  [Expr.path "op" ["name"], Expr.path "op" ["id"], wavelength] ++
  (summaryPlots ++ otherPlots).map (fun n => Expr.path "op" ["plots", n]) ++ table.flatMap rowExprs

/-- a text, or a value of the list -/
def leafIn (es : List Expr) : Node → Bool
  | .text _ => true
  | .out e => decide (e ∈ es)
  | _ => false

theorem title_leaves : titleNodes.all (leafIn sheetExprs) = true := by decide +kernel
theorem body_leaves : bodyNodes.all (leafIn sheetExprs) = true := by decide +kernel
theorem other_leaves : otherNodes.all (leafIn sheetExprs) = true := by decide +kernel

theorem leaves_ok {es : List Expr} (he : ∀ e ∈ es, ∃ v, eval env e = .ok v) {l : List Node} (h : l.all (leafIn es) = true) :
    ∃ s, render t env l = .ok s := by
  rw [render_ok_iff]
  intro n hn
  have := List.all_eq_true.1 h n hn
  cases n with
  | text s => exact ⟨_, renderNode_text s⟩
  | out e =>
    obtain ⟨v, hv⟩ := he e (of_decide_eq_true this)
    exact ⟨_, renderNode_out_ok.2 ⟨v, hv, rfl⟩⟩
  | ite c a b => cases this
  | loop n e b => cases this
  | items k v e b => cases this

theorem look_parent {v : Val} {ks : List String} {k : String} (h : look v (ks ++ [k]) ≠ .undefined) : look v ks ≠ .undefined := by
  intro h0
  rw [look_snoc, h0] at h
  exact h rfl

theorem exprs_ok (h : Complete (env "op")) : ∀ e ∈ sheetExprs, ∃ v, eval env e = .ok v := by
  obtain ⟨⟨settings, hset⟩, ⟨params, hpar⟩, hplots, hrows⟩ := h
  have hop : look (env "op") [] ≠ .undefined :=
    look_parent (ks := []) (k := "camera_settings") (by
      rw [show ([] : List String) ++ ["camera_settings"] = ["camera_settings"] from rfl, hset]; exact fun h => by cases h)
  intro e he
  simp only [sheetExprs, List.mem_append, List.mem_cons, List.not_mem_nil, or_false, List.mem_map, List.mem_flatMap] at he
  rcases he with ((rfl | rfl | rfl) | ⟨n, hn, rfl⟩) | ⟨l, hl, he⟩
  · exact ⟨_, eval_path_ok (ks := []) (k := "name") (by decide) hop⟩
  · exact ⟨_, eval_path_ok (ks := []) (k := "id") (by decide) hop⟩
  · have := eval_path_ok (env := env) (v := "op") (ks := ["test_parameters"]) (k := "Wavelength") (by decide)
      (by rw [hpar]; exact fun h => by cases h)
    exact ⟨_, eval_missing_ok.2 ⟨_, _, this, by rw [eval], rfl⟩⟩
  · refine ⟨_, eval_path_ok (ks := ["plots"]) (k := n) ?_ hplots⟩
    have hm := of_decide_eq_true (List.all_eq_true.1 plots_names n (List.mem_append.2 hn))
    simp only [List.cons_append, List.nil_append, List.mem_cons, List.not_mem_nil, or_false]
    rintro k (rfl | rfl)
    · decide
    · exact hm
  · cases l with
    | title s => cases he
    | name a b => cases he
    | row sec attr p dash lay =>
      have hn := List.all_eq_true.1 table_names _ hl
      simp only [lineNames, Bool.and_eq_true, decide_eq_true_eq] at hn
      have hv := hrows sec attr p dash lay hl
      have hd : look (env "op") ["results", sec, attr] ≠ .undefined :=
        look_parent (ks := ["results", sec, attr]) (k := "value") (by
          intro h0
          rw [show ["results", sec, attr] ++ ["value"] = ["results", sec, attr, "value"] from rfl] at h0
          rw [h0] at hv
          exact hv)
      have hk : ∀ k, k ∉ dictMethods → eval env (resPath sec attr k) = .ok (look (env "op") ["results", sec, attr, k]) := by
        intro k hk
        refine eval_path_ok (ks := ["results", sec, attr]) (k := k) ?_ hd
        simp only [List.cons_append, List.nil_append, List.mem_cons, List.not_mem_nil, or_false]
        rintro j (rfl | rfl | rfl | rfl)
        · decide
        · exact hn.1
        · exact hn.2
        · exact hk
      obtain ⟨n1, n2, n3, n4⟩ := symbol_ok
      simp only [rowExprs, List.mem_cons, List.not_mem_nil, or_false] at he
      rcases he with rfl | rfl | rfl | rfl
      · exact ⟨_, hk _ n4⟩
      · exact ⟨_, hk _ n1⟩
      · exact ⟨_, hk _ n2⟩
      · exact number_ok (hk _ n3) hv

theorem order_mem {Ps : List (Str → Prop)} {s : Str} (h : InOrder Ps s) : ∀ P ∈ Ps, ∃ m, P m := by
  induction Ps generalizing s with
  | nil => simp
  | cons P Ps ih =>
    obtain ⟨a, m, b, -, h1, h2⟩ := h
    intro Q hQ
    rcases List.mem_cons.1 hQ with rfl | hQ
    · exact ⟨m, h1⟩
    · exact ih h2 Q hQ

/-- the sheet can be written exactly if the operation point is complete -/
theorem sheet_complete : (∃ s, render t env sheetNodes = .ok s) ↔ Complete (env "op") := by
  constructor
  · rintro ⟨s, hs⟩
    have hs' := hs
    obtain ⟨a, b, c, settings, params, hset, hpar, -, -, hb, -⟩ := sheet_of_render hs
    refine ⟨⟨settings, hset⟩, ⟨params, hpar⟩, ?_, ?_⟩
    · rw [sheetNodes_eq, render_append_ok] at hs
      obtain ⟨_, _, -, hs, -⟩ := hs
      rw [render_append_ok] at hs
      obtain ⟨_, _, -, hs, -⟩ := hs
      rw [render_append_ok] at hs
      obtain ⟨_, _, hs, -, -⟩ := hs
      obtain ⟨m, hm, -⟩ := render_find (p := plotPart "PlotPTC") (by decide +kernel) hs
      obtain ⟨x, hx, -⟩ := hm
      obtain ⟨v, hv, -⟩ := items1.1 hx
      rw [show Expr.path "op" ["plots", "PlotPTC"] = .attr (Expr.path "op" ["plots"]) "PlotPTC" from rfl, eval_attr_ok] at hv
      obtain ⟨w, hw, hv⟩ := hv
      rw [← eval_path (by decide) hw]
      exact (look_attr (by decide) hv).2
    · intro sec attr p dash l hl
      obtain ⟨m, num, hnum, -⟩ := order_mem hb (LineText t (env "op") (.row sec attr p dash l))
        (List.mem_append_right _ (List.mem_map_of_mem hl))
      revert hnum
      generalize look (env "op") ["results", sec, attr, "value"] = v
      cases v <;> simp only [Number, CanShow, imp_self, implies_true, and_imp] <;> intro h <;> first | exact h | exact fun _ => h | trivial
  · intro h
    have hex := exprs_ok h
    obtain ⟨a, ha⟩ := leaves_ok (t := t) hex title_leaves
    obtain ⟨b, hb⟩ := leaves_ok (t := t) hex body_leaves
    obtain ⟨c, hc⟩ := leaves_ok (t := t) hex other_leaves
    obtain ⟨⟨settings, hset⟩, ⟨params, hpar⟩, -⟩ := h
    have hh := header_ok (t := t) (env := env).2 ⟨settings, params, hset, hpar, rfl⟩
    have hsum : ∃ d, renderNode t env (.ite (.isFalse (.attr (.var "op") "summary_only")) otherNodes []) = .ok d := by
      have hop : look (env "op") [] ≠ .undefined :=
        look_parent (ks := []) (k := "camera_settings") (by
          rw [show ([] : List String) ++ ["camera_settings"] = ["camera_settings"] from rfl, hset]; exact fun h => by cases h)
      have he := eval_path_ok (env := env) (v := "op") (ks := []) (k := "summary_only") (by decide) hop
      have hcond : evalCond env (.isFalse (.attr (.var "op") "summary_only")) =
          .ok (!given (look (env "op") ["summary_only"])) := by
        rw [evalCond, show Expr.attr (.var "op") "summary_only" = Expr.path "op" ([] ++ ["summary_only"]) from rfl, he,
          ← truthy_eq]
        rfl
      cases hx : given (look (env "op") ["summary_only"])
      · exact ⟨c, renderNode_ite_ok.2 (.inl ⟨by rw [hcond, hx]; rfl, hc⟩)⟩
      · exact ⟨[], renderNode_ite_ok.2 (.inr ⟨by rw [hcond, hx]; rfl, render_nil⟩)⟩
    obtain ⟨d, hd⟩ := hsum
    rw [sheetNodes_eq]
    exact ⟨_, render_append_ok.2 ⟨_, _, ha, render_append_ok.2 ⟨_, _, hh, render_append_ok.2 ⟨_, _, hb,
      render_cons_ok.2 ⟨_, _, hd, render_cons_ok.2 ⟨_, _, renderNode_text _, render_nil, rfl⟩, rfl⟩, rfl⟩, rfl⟩, rfl⟩⟩

end Jinja
end Emva
