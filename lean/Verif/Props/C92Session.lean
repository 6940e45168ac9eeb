import Verif.Props.C92Files
import Verif.Props.C57

/-!
C92: the report of a history of `add` calls.
-/
set_option autoImplicit false
set_option maxRecDepth 4000
namespace Emva
namespace Jinja
open SheetSpec Report Results Xml Info

/-- the values of an operation point as the template sees them: `sec` gives the results by section of a results object, `other`
any other object -/
def opView (sec other : ℕ → Val) : OpVal → Val
  | .none => .none
  | .str s => .str s
  | .plots d => .dict (d.map fun x => (x.1, .str x.2))
  | .sections r => sec r
  | .other _ tag => other tag

/-- an operation point as the template sees it -/
def dictView (sec other : ℕ → Val) (d : Dict Str OpVal) : Val := .dict (d.map fun x => (x.1, opView sec other x.2))

/-- the list `self.ops` as the template sees it -/
def opsView (sec other : ℕ → Val) (s : Report.State) : List Val := s.ops.map fun r => dictView sec other (s.dicts r)

/-- the keys that `add` does not touch -/
theorem put_key (s : Report.State) (r x : ℕ) {k k' : Str} (v : OpVal) (h : k' ≠ k) :
    Dict.get? ((s.put r k v).dicts x) k' = Dict.get? (s.dicts x) k' := by
  rw [put_get]
  simp [h.symm]

theorem plotLoop_dicts (c : Call) (dir id_ : Str) (l : List Str) (names : Dict Str Str) (s : Report.State) :
    (plotLoop c dir id_ l names s).1.dicts = s.dicts := by
  induction l generalizing names s with
  | nil => rfl
  | cons x l ih =>
    rw [plotLoop]
    split
    · rfl
    · exact ih _ _

theorem plots_dicts (c : Call) (id_ : Str) (s : Report.State) : (plots c id_ s).1.dicts = s.dicts := by
  rw [plots]
  split
  · rfl
  · exact plotLoop_dicts _ _ _ _ _ _

theorem add_key (c : Call) (s : Report.State) (x : ℕ) {k : Str} (h1 : k ≠ kId) (h2 : k ≠ kName) (h3 : k ≠ kResults) (h4 : k ≠ kPlots) :
    Dict.get? ((add c s).1.dicts x) k = Dict.get? (s.dicts x) k := by
  rw [add]
  simp only
  split
  · exact put_key _ _ _ _ h1
  · rename_i v _
    have hn : ∀ s' : Report.State, Dict.get? ((if v.truthy = true then s' else s'.put c.op kName (.str (opId (s.ops.length + 1)))).dicts x) k =
        Dict.get? (s'.dicts x) k := by
      intro s'
      split
      · rfl
      · exact put_key _ _ _ _ h2
    split
    · rw [hn]; exact put_key _ _ _ _ h1
    · split
      · rw [hn]; exact put_key _ _ _ _ h1
      · split
        · rename_i e
          have := congrArg (fun p => p.1.dicts) e
          simp only [plots_dicts] at this
          rw [← this, put_key _ _ _ _ h3, hn]; exact put_key _ _ _ _ h1
        · rename_i e
          have := congrArg (fun p => p.1.dicts) e
          simp only [plots_dicts] at this
          rw [put_key _ _ _ _ h4, ← this, put_key _ _ _ _ h3, hn]; exact put_key _ _ _ _ h1

theorem run_key (cs : List Call) (s : Report.State) (x : ℕ) {k : Str} (h1 : k ≠ kId) (h2 : k ≠ kName) (h3 : k ≠ kResults)
    (h4 : k ≠ kPlots) : Dict.get? ((run cs s).1.dicts x) k = Dict.get? (s.dicts x) k := by
  induction cs generalizing s with
  | nil => rfl
  | cons c cs ih =>
    have e : (run (c :: cs) s).1 = (run cs (add c s).1).1 := rfl
    rw [e, ih, add_key c s x h1 h2 h3 h4]

/-- an entry of the report comes from a call that succeeded -/
theorem run_split (cs : List Call) (s : Report.State) (h0 : s.ops = []) (r : ℕ) (h : r ∈ (run cs s).1.ops) :
    ∃ pre c post, cs = pre ++ c :: post ∧ c.op = r ∧ succeeds (add c (run pre s).1).2 = true := by
  induction cs using List.reverseRecOn with
  | nil => rw [run, h0] at h; cases h
  | append_singleton cs c ih =>
    have e : (run (cs ++ [c]) s).1 = (add c (run cs s).1).1 := by rw [run_append]; rfl
    rw [e, (add_spec c (run cs s).1).ops] at h
    by_cases hs : succeeds (add c (run cs s).1).2 = true
    · rw [if_pos hs] at h
      rcases List.mem_append.1 h with h | h
      · obtain ⟨pre, c', post, e1, e2, e3⟩ := ih h
        exact ⟨pre, c', post ++ [c], by rw [e1]; simp, e2, e3⟩
      · exact ⟨cs, c, [], rfl, (List.mem_singleton.1 h).symm, hs⟩
    · rw [if_neg hs] at h
      obtain ⟨pre, c', post, e1, e2, e3⟩ := ih h
      exact ⟨pre, c', post ++ [c], by rw [e1]; simp, e2, e3⟩

theorem get_view (sec other : ℕ → Val) (d : Dict Str OpVal) (k : String) {v : OpVal} (h : Dict.get? d k.toList = some v) :
    SheetSpec.get (dictView sec other d) k = opView sec other v := by
  rw [dictView, SheetSpec.get, entry, get_map (opView sec other), h]
  rfl

theorem plots_documented : ∀ n ∈ summaryPlots ++ otherPlots, n.toList ∈ plotClasses := by decide +kernel

theorem free_keys : "camera_settings".toList ≠ kId ∧ "camera_settings".toList ≠ kName ∧ "camera_settings".toList ≠ kResults ∧
    "camera_settings".toList ≠ kPlots ∧ "test_parameters".toList ≠ kId ∧ "test_parameters".toList ≠ kName ∧
    "test_parameters".toList ≠ kResults ∧ "test_parameters".toList ≠ kPlots := by decide +kernel

end Jinja

open Jinja SheetSpec Report Results Xml Info

/-- the object shows the results of the measurement `res`, all of which can be computed -/
def SheetSpec.Measured (int : ℤ → Str) (q : LSQ ℝ) (v : Val) (res : Res ℝ) : Prop :=
  (∀ a : Attr, a ≠ .s2q → a ≠ .linearity → ∃ v, (read q a res).1 = .ok v) ∧
  ∀ d s, objToDict asciiLower resultsDocs (attrNamed int q res) = .ok d → sectionsFirst d = .ok s → v = sectionsVal s

/-- C92: a history of `add` calls with separate dictionaries that contain settings and parameters, and with results that can be
computed.  The report can be written; it contains the operation points of the calls that succeeded, the k-th is labelled `OP<k>`
and includes the plots of its own directory, and the numbers of its table are those of the results of its call. -/
theorem C92_session (int : ℤ → Str) (q : LSQ ℝ) (cs : List Call) (s : Report.State) (h0 : s.ops = []) (hd : (cs.map (·.op)).Nodup)
    (sec other : ℕ → Val) (res : ℕ → Res ℝ)
    (hset : ∀ c ∈ cs, ∃ b tag d, Dict.get? (s.dicts c.op) "camera_settings".toList = some (.other b tag) ∧ other tag = .dict d)
    (hpar : ∀ c ∈ cs, ∃ b tag d, Dict.get? (s.dicts c.op) "test_parameters".toList = some (.other b tag) ∧ other tag = .dict d)
    (hres : ∀ c ∈ cs, ∀ r, (c.given = some r ∨ c.given = none ∧ c.built = .ok r) → Measured int q (sec r) (res r))
    (t : Texts) (g : Generator) (hops : g.ops = opsView sec other (run cs s).1) :
    (∃ rep, report t g = .ok rep) ∧ g.ops.length = (run cs s).2.count true ∧
    ∀ k op, g.ops[k]? = some op → ∃ id : Str, IdOf (k + 1) id ∧ look op ["id"] = .str id ∧
      (∀ n ∈ summaryPlots ++ otherPlots, look op ["plots", n] = .str (id ++ "/".toList ++ n.toList ++ ".pdf".toList)) ∧
      ∃ c ∈ cs, ∃ r, (c.given = some r ∨ c.given = none ∧ c.built = .ok r) ∧ (run cs s).1.ops[k]? = some c.op ∧
        ∀ sec attr p dash l, Line.row sec attr p dash l ∈ table → ∃ a x, (attr, a) ∈ attrOfName ∧
          (read q a (res r)).1 = .ok (.num x) ∧ look op ["results", sec, attr, "value"] = Jinja.ofNum x := by
  have key : ∀ k op, g.ops[k]? = some op → Complete op ∧ ∃ id : Str, IdOf (k + 1) id ∧ look op ["id"] = .str id ∧
      (∀ n ∈ summaryPlots ++ otherPlots, look op ["plots", n] = .str (id ++ "/".toList ++ n.toList ++ ".pdf".toList)) ∧
      ∃ c ∈ cs, ∃ r, (c.given = some r ∨ c.given = none ∧ c.built = .ok r) ∧ (run cs s).1.ops[k]? = some c.op ∧
        ∀ sec attr p dash l, Line.row sec attr p dash l ∈ table → ∃ a x, (attr, a) ∈ attrOfName ∧
          (read q a (res r)).1 = .ok (.num x) ∧ look op ["results", sec, attr, "value"] = Jinja.ofNum x := by
    intro k op hk
    rw [hops, opsView, List.getElem?_map] at hk
    obtain ⟨r, hr, rfl⟩ := Option.map_eq_some_iff.1 hk
    obtain ⟨pre, c, post, e, rfl, hs⟩ := run_split cs s h0 r (List.mem_of_getElem? hr)
    have hc : c ∈ cs := by rw [e]; simp
    have hpost : ∀ c' ∈ post, c'.op ≠ c.op := by
      rw [e, List.map_append, List.map_cons, List.nodup_append, List.nodup_cons] at hd
      intro c' hc' he
      exact hd.2.1.1 (List.mem_map.2 ⟨c', hc', he⟩)
    obtain ⟨id', -, h2, h3⟩ := C57_id pre post c s h0 hpost
    obtain ⟨x, plots, hx, h4, h5, h6, -⟩ := h3 hs
    obtain ⟨id, hid, h2'⟩ := C57_ids cs s h0 hd k c.op hr
    rw [← e] at h2 h4 h5
    have hii : id' = id := by
      rw [h2] at h2'
      exact OpVal.str.inj (Option.some.inj h2')
    subst hii
    obtain ⟨b1, t1, d1, g1, g1'⟩ := hset c hc
    obtain ⟨b2, t2, d2, g2, g2'⟩ := hpar c hc
    obtain ⟨f1, f2, f3, f4, f5, f6, f7, f8⟩ := free_keys
    rw [← run_key cs s c.op f1 f2 f3 f4] at g1
    rw [← run_key cs s c.op f5 f6 f7 f8] at g2
    obtain ⟨hm1, hm2⟩ := hres c hc x hx
    obtain ⟨d, ss, e1, e2, h⟩ := C92_results int q (res x) hm1
    generalize hD : (run cs s).1.dicts c.op = D at *
    have v1 := (get_view sec other D "camera_settings" g1).trans g1'
    have v2 := (get_view sec other D "test_parameters" g2).trans g2'
    have v3 := get_view sec other D "plots" h5
    have v4 := (get_view sec other D "results" h4).trans (hm2 d ss e1 e2)
    have v5 := get_view sec other D "id" h2
    obtain ⟨w1, w2⟩ := h (dictView sec other D) d1 d2 _ v1 v2 v3 v4
    refine ⟨w1, id', hid, v5, ?_, c, hc, x, hx, hr, w2⟩
    intro n hn
    have hl : ∀ v, look v ["plots", n] = SheetSpec.get (SheetSpec.get v "plots") n := fun _ => rfl
    rw [hl, v3, opView, SheetSpec.get, entry, get_map Val.str, h6.1 _ (plots_documented n hn)]
    rfl
  refine ⟨(C92_complete t g).2 fun op ho => ?_, ?_, fun k op hk => (key k op hk).2⟩
  · obtain ⟨k, hk⟩ := List.mem_iff_getElem?.1 ho
    exact (key k op hk).1
  · rw [hops, opsView, List.length_map, (run_ops cs s).2.1, h0]
    simp

namespace Jinja

/-- dictionaries for two operation points -/
def sampleOps : Report.State where
  outdir := "/tmp/report".toList
  dicts := fun r => [("name".toList, if r = 0 then .str "Gain 1".toList else .none), ("id".toList, .none),
    ("camera_settings".toList, .other true 0), ("test_parameters".toList, .other true 1)]
  resId := fun _ => none
  ops := []
  files := []

def sampleOther : ℕ → Val
  | 0 => .dict [("Gain".toList, .str "1".toList)]
  | _ => .dict [("Wavelength".toList, .str "525 nm".toList)]

end Jinja

/-- a report of two operation points with the results of a measurement; a third call fails -/
example (q : LSQ ℝ) (t : Texts) (m b setup : List (Str × Val)) : ∃ v s,
    let ops := opsView (fun _ => v) sampleOther (run [sampleCall 0 false, sampleCall 1 true, sampleCall 2 false] sampleOps).1
    report t ⟨m, b, setup, ops, .none⟩ = .ok s ∧ ops.length = 2 := by
  obtain ⟨d, x, h1, h2, -⟩ := C92_results (fun _ => []) q C77sample fun a _ _ => C77sample_computes q a
  have hm : Measured (fun _ => []) q (sectionsVal x) C77sample := by
    refine ⟨fun a _ _ => C77sample_computes q a, fun d' x' h1' h2' => ?_⟩
    rw [h1] at h1'
    cases h1'
    rw [h2] at h2'
    cases h2'
    rfl
  obtain ⟨⟨s, hs⟩, hl, -⟩ := C92_session (fun _ => []) q [sampleCall 0 false, sampleCall 1 true, sampleCall 2 false] sampleOps rfl
    (by decide) (fun _ => sectionsVal x) sampleOther (fun _ => C77sample)
    (fun c _ => ⟨true, 0, _, rfl, rfl⟩) (fun c _ => ⟨true, 1, _, rfl, rfl⟩)
    (fun _ _ _ _ => hm) t ⟨m, b, setup, _, .none⟩ rfl
  exact ⟨_, s, hs, hl.trans (by decide +kernel)⟩

end Emva
