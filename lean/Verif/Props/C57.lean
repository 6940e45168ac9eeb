import Verif.Model.Report
import Verif.Spec.Report
import Verif.Lemmas.Num

/-!
C57: the operation points of a report are numbered in the order of the successful `add` calls.
-/
set_option autoImplicit false
namespace Emva
namespace Report
open Py

theorem opId_spec (n : ℕ) : IdOf n (opId n) :=
  ⟨fmtNat n, rfl, decInt_fmtNat n, (allDig_fmtNat n).all⟩

theorem IdOf.unique {n m : ℕ} {s : Str} (h : IdOf n s) (h' : IdOf m s) : n = m := by
  obtain ⟨d, rfl, h1, -⟩ := h
  obtain ⟨d', h2, h3, -⟩ := h'
  cases h2
  rw [h1] at h3
  exact_mod_cast Option.some.inj h3

theorem join_id (n : ℕ) (f : Str) (hf : ∀ c ∈ f.head?, c ≠ '/') : pathJoin (opId n) [f] = opId n ++ '/' :: f := by
  have h1 : startsWith f ['/'] = false := by
    cases f with
    | nil => rfl
    | cons a f =>
      have : a ≠ '/' := hf a rfl
      simp [startsWith, List.isPrefixOf, this.symm]
  have h2 : endsWithChar (opId n) '/' = false := by
    have hne := fmtNat_ne_nil n
    have : (opId n).getLast? = (fmtNat n).getLast? := by
      rw [opId]
      cases h : fmtNat n with
      | nil => exact absurd h hne
      | cons a l => rfl
    rw [endsWithChar, this, List.getLast?_eq_some_getLast hne]
    have hd := (allDig_fmtNat n).isDigit _ (List.getLast_mem hne)
    simp only [beq_eq_false_iff_ne, ne_eq, Option.some.injEq]
    intro h0
    rw [h0] at hd
    exact absurd hd (by decide)
  simp only [pathJoin, List.foldl_cons, List.foldl_nil, join1, h1, h2]
  simp [opId]

theorem join_dir (o f : Str) (ho : o ≠ []) (ho' : o.getLast? ≠ some '/') (hf : ∀ c ∈ f.head?, c ≠ '/') :
    pathJoin o [f] = o ++ '/' :: f := by
  have h1 : startsWith f ['/'] = false := by
    cases f with
    | nil => rfl
    | cons a f =>
      have : a ≠ '/' := hf a rfl
      simp [startsWith, List.isPrefixOf, this.symm]
  have h2 : endsWithChar o '/' = false := by
    simpa [endsWithChar] using ho'
  simp [pathJoin, join1, h1, h2, ho]

theorem plotLoop_other (c : Call) (dir id_ : Str) (l : List Str) (names : Dict Str Str) (s : State) :
    (plotLoop c dir id_ l names s).1.dicts = s.dicts ∧ (plotLoop c dir id_ l names s).1.ops = s.ops ∧
    (plotLoop c dir id_ l names s).1.resId = s.resId ∧ (plotLoop c dir id_ l names s).1.outdir = s.outdir ∧
    s.files <+: (plotLoop c dir id_ l names s).1.files := by
  induction l generalizing names s with
  | nil => exact ⟨rfl, rfl, rfl, rfl, List.prefix_refl _⟩
  | cons cls l ih =>
    rw [plotLoop]
    split
    · exact ⟨rfl, rfl, rfl, rfl, List.prefix_refl _⟩
    · obtain ⟨h1, h2, h3, h4, h5⟩ := ih (Dict.set names cls (pathJoin id_ [cls ++ ".pdf".toList]))
        { s with files := s.files ++ [pathJoin dir [cls ++ ".pdf".toList]] }
      exact ⟨h1, h2, h3, h4, (List.prefix_append _ _).trans h5⟩

theorem plotLoop_ok (c : Call) (dir id_ : Str) (l : List Str) (names names' : Dict Str Str) (s s' : State)
    (h : plotLoop c dir id_ l names s = (s', .ok names')) :
    (∀ cls ∈ l, Dict.get? names' cls = some (pathJoin id_ [cls ++ ".pdf".toList]) ∧
      pathJoin dir [cls ++ ".pdf".toList] ∈ s'.files) ∧
    (∀ k, k ∉ l → Dict.get? names' k = Dict.get? names k) := by
  induction l generalizing names s with
  | nil =>
    cases h
    exact ⟨by simp, fun _ _ => rfl⟩
  | cons cls l ih =>
    rw [plotLoop] at h
    split at h
    · cases h
    · have hk := ih _ _ h
      have hpre := (plotLoop_other c dir id_ l (Dict.set names cls (pathJoin id_ [cls ++ ".pdf".toList]))
        { s with files := s.files ++ [pathJoin dir [cls ++ ".pdf".toList]] }).2.2.2.2
      rw [h] at hpre
      constructor
      · intro c' hc'
        by_cases hl : c' ∈ l
        · exact hk.1 c' hl
        · obtain rfl : c' = cls := (List.mem_cons.1 hc').resolve_right hl
          refine ⟨?_, hpre.subset (by simp)⟩
          rw [hk.2 _ hl, Dict.get?_set_self]
      · intro k hk'
        rw [List.mem_cons, not_or] at hk'
        rw [hk.2 k hk'.2, Dict.get?_set_ne _ _ (Ne.symm hk'.1)]

/-- everything a single `add` does -/
structure AddSpec (c : Call) (s : State) (p : State × Except PyErr Unit) : Prop where
  outdir : p.1.outdir = s.outdir
  others : ∀ x, x ≠ c.op → p.1.dicts x = s.dicts x
  id : Dict.get? (p.1.dicts c.op) kId = some (.str (opId (s.ops.length + 1)))
  name_kept : ∀ v, Dict.get? (s.dicts c.op) kName = some v → v.truthy = true →
    Dict.get? (p.1.dicts c.op) kName = some v
  name_default : ∀ v, Dict.get? (s.dicts c.op) kName = some v → v.truthy = false →
    Dict.get? (p.1.dicts c.op) kName = some (.str (opId (s.ops.length + 1)))
  name_missing : Dict.get? (s.dicts c.op) kName = none →
    p.2 = .error .keyError ∧ Dict.get? (p.1.dicts c.op) kName = none
  ops : p.1.ops = if succeeds p.2 then s.ops ++ [c.op] else s.ops
  files : s.files <+: p.1.files
  resId : ∀ x, theResults c ≠ .ok x → p.1.resId x = s.resId x
  success : succeeds p.2 = true → ∃ r d, theResults c = .ok r ∧ p.1.resId r = some (s.ops.length + 1) ∧
    Dict.get? (p.1.dicts c.op) kResults = some (.sections r) ∧
    Dict.get? (p.1.dicts c.op) kPlots = some (.plots d) ∧
    (∀ cls ∈ plotClasses, Dict.get? d cls = some (pathJoin (opId (s.ops.length + 1)) [cls ++ ".pdf".toList])) ∧
    (∀ k, k ∉ plotClasses → Dict.get? d k = none) ∧
    (∀ cls ∈ plotClasses, pathJoin (pathJoin s.outdir [opId (s.ops.length + 1)]) [cls ++ ".pdf".toList] ∈ p.1.files)

theorem put_get (s : State) (r x : ℕ) (k k' : Str) (v : OpVal) :
    Dict.get? ((s.put r k v).dicts x) k' = if x = r ∧ k = k' then some v else Dict.get? (s.dicts x) k' := by
  unfold State.put
  simp only
  by_cases h : x = r
  · subst h
    rw [if_pos rfl, Dict.get?_set]
    simp
  · rw [if_neg h, if_neg (by tauto)]

theorem put_ne (s : State) {r x : ℕ} (k : Str) (v : OpVal) (h : x ≠ r) : (s.put r k v).dicts x = s.dicts x := by
  simp [State.put, h]

theorem keys_ne : kId ≠ kName ∧ kName ≠ kId ∧ kResults ≠ kId ∧ kResults ≠ kName ∧ kPlots ≠ kId ∧ kPlots ≠ kName ∧
    kPlots ≠ kResults := by decide

theorem add_spec (c : Call) (s : State) : AddSpec c s (add c s) := by
  obtain ⟨k1, k2, k3, k4, k5, k6, k7⟩ := keys_ne
  generalize hn : s.ops.length + 1 = n
  have hname0 : Dict.get? ((s.put c.op kId (.str (opId n))).dicts c.op) kName = Dict.get? (s.dicts c.op) kName := by
    rw [put_get, if_neg (by tauto)]
  cases hv : Dict.get? (s.dicts c.op) kName with
  | none =>
    have e : add c s = (s.put c.op kId (.str (opId n)), .error .keyError) := by
      unfold add; simp only [hn, hname0, hv]
    rw [e]
    exact { outdir := rfl, others := fun x hx => put_ne _ _ _ hx, id := by rw [put_get, hn]; simp
            name_kept := by simp [hv], name_default := by simp [hv]
            name_missing := fun _ => ⟨rfl, by rw [hname0, hv]⟩
            ops := rfl, files := List.prefix_refl _, resId := fun _ _ => rfl, success := by simp }
  | some v =>
    generalize hs1 : (if v.truthy then s.put c.op kId (.str (opId n))
      else (s.put c.op kId (.str (opId n))).put c.op kName (.str (opId n))) = s1
    have f1 : s1.outdir = s.outdir ∧ s1.ops = s.ops ∧ s1.files = s.files ∧ s1.resId = s.resId := by
      rw [← hs1]; split <;> exact ⟨rfl, rfl, rfl, rfl⟩
    have f2 : ∀ x, x ≠ c.op → s1.dicts x = s.dicts x := by
      intro x hx
      rw [← hs1]; split
      · exact put_ne _ _ _ hx
      · rw [put_ne _ _ _ hx, put_ne _ _ _ hx]
    have f3 : Dict.get? (s1.dicts c.op) kId = some (.str (opId n)) := by
      rw [← hs1]; split
      · rw [put_get]; simp
      · rw [put_get, if_neg (by tauto), put_get]; simp
    have f4 : v.truthy = true → Dict.get? (s1.dicts c.op) kName = some v := by
      intro ht
      rw [← hs1, if_pos ht, hname0, hv]
    have f5 : v.truthy = false → Dict.get? (s1.dicts c.op) kName = some (.str (opId n)) := by
      intro ht
      rw [← hs1, if_neg (by simp [ht]), put_get]; simp
    obtain ⟨g1, g2, g3, g4⟩ := f1
    cases hr : theResults c with
    | error e0 =>
      have e : add c s = (s1, .error e0) := by
        unfold add; simp only [hn, hname0, hv, hs1, hr]
      rw [e]
      exact { outdir := g1, others := f2, id := by rw [hn]; exact f3
              name_kept := by rintro v' h ht; cases h.symm.trans hv; exact f4 ht
              name_default := by rintro v' h ht; cases h.symm.trans hv; rw [hn]; exact f5 ht
              name_missing := by simp [hv], ops := g2, files := by rw [g3]
              resId := fun x _ => by rw [g4], success := by simp }
    | ok r =>
      cases hse : c.sections with
      | error e0 =>
        have e : add c s = (s1, .error e0) := by
          unfold add; simp only [hn, hname0, hv, hs1, hr, hse]
        rw [e]
        exact { outdir := g1, others := f2, id := by rw [hn]; exact f3
                name_kept := by rintro v' h ht; cases h.symm.trans hv; exact f4 ht
                name_default := by rintro v' h ht; cases h.symm.trans hv; rw [hn]; exact f5 ht
                name_missing := by simp [hv], ops := g2, files := by rw [g3]
                resId := fun x _ => by rw [g4], success := by simp }
      | ok u =>
        generalize hs2 : ({ s1.put c.op kResults (.sections r) with
            resId := fun x => if x = r then some n else (s1.put c.op kResults (.sections r)).resId x } : State) = s2
        have j1 : s2.outdir = s.outdir ∧ s2.ops = s.ops ∧ s2.files = s.files := by
          rw [← hs2]; exact ⟨g1, g2, g3⟩
        have j2 : ∀ x k, Dict.get? (s2.dicts x) k =
            if x = c.op ∧ kResults = k then some (.sections r) else Dict.get? (s1.dicts x) k := by
          intro x k
          rw [← hs2]; exact put_get _ _ _ _ _ _
        have j2' : ∀ x, x ≠ c.op → s2.dicts x = s1.dicts x := by
          intro x hx
          rw [← hs2]; exact put_ne _ _ _ hx
        have j3 : ∀ x, s2.resId x = if x = r then some n else s.resId x := by
          intro x
          rw [← hs2, ← g4]; rfl
        obtain ⟨q1, q2, q3⟩ := j1
        generalize hp : plots c (opId n) s2 = p
        have hpl : p.1.dicts = s2.dicts ∧ p.1.ops = s2.ops ∧ p.1.resId = s2.resId ∧ p.1.outdir = s2.outdir ∧
            s2.files <+: p.1.files := by
          rw [← hp, plots]
          cases c.mkdir with
          | error => exact ⟨rfl, rfl, rfl, rfl, List.prefix_refl _⟩
          | ok => exact plotLoop_other _ _ _ _ _ _
        obtain ⟨p1, p2, p3, p4, p5⟩ := hpl
        have hres : ∀ x, theResults c ≠ .ok x → p.1.resId x = s.resId x := by
          intro x hx
          have : x ≠ r := by rintro rfl; exact hx hr
          rw [p3, j3, if_neg this]
        obtain ⟨s3, e3⟩ := p
        cases e3 with
        | error e0 =>
          have e : add c s = (s3, .error e0) := by
            unfold add; simp only [hn, hname0, hv, hs1, hr, hse, hs2, hp]
          rw [e]
          simp only at p1 p2 p3 p4 p5 hres
          exact { outdir := p4.trans q1
                  others := fun x hx => by show s3.dicts x = _; rw [p1, j2' x hx, f2 x hx]
                  id := by
                    show Dict.get? (s3.dicts c.op) kId = _
                    rw [p1, j2, if_neg (by tauto), hn]; exact f3
                  name_kept := by
                    rintro v' h ht; cases h.symm.trans hv
                    show Dict.get? (s3.dicts c.op) kName = _
                    rw [p1, j2, if_neg (by tauto)]; exact f4 ht
                  name_default := by
                    rintro v' h ht; cases h.symm.trans hv
                    show Dict.get? (s3.dicts c.op) kName = _
                    rw [p1, j2, if_neg (by tauto), hn]; exact f5 ht
                  name_missing := by simp [hv], ops := p2.trans q2, files := q3 ▸ p5
                  resId := hres, success := by simp }
        | ok names =>
          have e : add c s = ({ s3.put c.op kPlots (.plots names) with
              ops := (s3.put c.op kPlots (.plots names)).ops ++ [c.op] }, .ok ()) := by
            unfold add; simp only [hn, hname0, hv, hs1, hr, hse, hs2, hp]
          rw [e]
          simp only at p1 p2 p3 p4 p5 hres
          have hpu : ∀ k, Dict.get? ((s3.put c.op kPlots (.plots names)).dicts c.op) k =
              if kPlots = k then some (.plots names) else Dict.get? (s2.dicts c.op) k := by
            intro k; rw [put_get, p1]; simp
          have hpo : ∀ x, x ≠ c.op → (s3.put c.op kPlots (.plots names)).dicts x = s.dicts x := by
            intro x hx; rw [put_ne _ _ _ hx, p1, j2' x hx, f2 x hx]
          have hfin : (∀ cls ∈ plotClasses, Dict.get? names cls = some (pathJoin (opId n) [cls ++ ".pdf".toList]) ∧
              pathJoin (pathJoin s.outdir [opId n]) [cls ++ ".pdf".toList] ∈ s3.files) ∧
              (∀ k, k ∉ plotClasses → Dict.get? names k = none) := by
            rw [plots] at hp
            cases hm : c.mkdir with
            | error => rw [hm] at hp; cases hp
            | ok =>
              rw [hm] at hp
              have := plotLoop_ok _ _ _ _ _ _ _ _ hp
              rw [← q1]
              exact this
          exact { outdir := p4.trans q1
                  others := fun x hx => hpo x hx
                  id := by
                    refine (hpu kId).trans ?_
                    rw [if_neg k5, j2, if_neg (by tauto), hn]; exact f3
                  name_kept := by
                    rintro v' h ht; cases h.symm.trans hv
                    refine (hpu kName).trans ?_
                    rw [if_neg k6, j2, if_neg (by tauto)]; exact f4 ht
                  name_default := by
                    rintro v' h ht; cases h.symm.trans hv
                    refine (hpu kName).trans ?_
                    rw [if_neg k6, j2, if_neg (by tauto), hn]; exact f5 ht
                  name_missing := by simp [hv]
                  ops := by
                    show s3.ops ++ [c.op] = _
                    rw [p2, q2]; rfl
                  files := q3 ▸ p5
                  resId := hres
                  success := fun _ => by
                    refine ⟨r, names, hr, ?_, ?_, ?_, ?_, hfin.2, ?_⟩
                    · show s3.resId r = _
                      rw [p3, j3, if_pos rfl, hn]
                    · refine (hpu kResults).trans ?_
                      rw [if_neg k7, j2, if_pos ⟨rfl, rfl⟩]
                    · exact (hpu kPlots).trans (if_pos rfl)
                    · rw [hn]; exact fun cls hc => (hfin.1 cls hc).1
                    · rw [hn]; exact fun cls hc => (hfin.1 cls hc).2 }

theorem run_append (cs ds : List Call) (s : State) :
    run (cs ++ ds) s = ((run ds (run cs s).1).1, (run cs s).2 ++ (run ds (run cs s).1).2) := by
  induction cs generalizing s with
  | nil => rfl
  | cons c cs ih =>
    have e : ∀ l, run (c :: l) s = ((run l (add c s).1).1, succeeds (add c s).2 :: (run l (add c s).1).2) := fun _ => rfl
    rw [List.cons_append, e, e, ih]
    rfl

theorem run_ops (cs : List Call) (s : State) :
    (run cs s).1.ops = s.ops ++ ((cs.zip (run cs s).2).filter (·.2)).map (·.1.op) ∧
    (run cs s).1.ops.length = s.ops.length + (run cs s).2.count true ∧
    (run cs s).2.length = cs.length ∧ (run cs s).1.outdir = s.outdir ∧ s.files <+: (run cs s).1.files := by
  induction cs generalizing s with
  | nil => exact ⟨by simp [run], by simp [run], rfl, rfl, List.prefix_refl _⟩
  | cons c cs ih =>
    obtain ⟨h1, h2, h3, h4, h5⟩ := ih (add c s).1
    have ha := add_spec c s
    have e : run (c :: cs) s = ((run cs (add c s).1).1, succeeds (add c s).2 :: (run cs (add c s).1).2) := rfl
    rw [e]
    simp only [List.zip_cons_cons, List.length_cons]
    refine ⟨?_, ?_, by rw [h3], h4.trans ha.outdir, ha.files.trans h5⟩
    · rw [h1, ha.ops]
      cases succeeds (add c s).2 <;> simp
    · rw [h2, ha.ops]
      cases succeeds (add c s).2 <;> simp; omega

theorem run_untouched (cs : List Call) (s : State) (r : ℕ) (h : ∀ c ∈ cs, c.op ≠ r) :
    (run cs s).1.dicts r = s.dicts r := by
  induction cs generalizing s with
  | nil => rfl
  | cons c cs ih =>
    have e : (run (c :: cs) s).1 = (run cs (add c s).1).1 := rfl
    rw [e, ih _ fun c' hc' => h c' (List.mem_cons_of_mem _ hc'),
      (add_spec c s).others r (Ne.symm (h c (List.mem_cons_self ..)))]

theorem run_name (cs : List Call) (s : State) (r : ℕ) (v : OpVal) (hv : Dict.get? (s.dicts r) kName = some v)
    (ht : v.truthy = true) : Dict.get? ((run cs s).1.dicts r) kName = some v := by
  induction cs generalizing s with
  | nil => exact hv
  | cons c cs ih =>
    have e : (run (c :: cs) s).1 = (run cs (add c s).1).1 := rfl
    rw [e]
    refine ih _ ?_
    by_cases hc : c.op = r
    · subst hc
      exact (add_spec c s).name_kept v hv ht
    · rw [(add_spec c s).others r (Ne.symm hc)]; exact hv

theorem run_resId (cs : List Call) (s : State) (r : ℕ) (h : ∀ c ∈ cs, theResults c ≠ .ok r) :
    (run cs s).1.resId r = s.resId r := by
  induction cs generalizing s with
  | nil => rfl
  | cons c cs ih =>
    have e : (run (c :: cs) s).1 = (run cs (add c s).1).1 := rfl
    rw [e, ih _ fun c' hc' => h c' (List.mem_cons_of_mem _ hc'),
      (add_spec c s).resId r (h c (List.mem_cons_self ..))]

end Report

open Report Py

/-- C57: the entries of the report are the dictionaries of the calls that succeeded, in order (a call
that raises adds no entry and leaves no gap in the numbering). -/
theorem C57_entries (cs : List Call) (s : State) (h0 : s.ops = []) :
    (run cs s).1.ops = ((cs.zip (run cs s).2).filter (·.2)).map (·.1.op) ∧ (run cs s).2.length = cs.length := by
  obtain ⟨h1, -, h3, -⟩ := run_ops cs s
  rw [h0] at h1
  exact ⟨by simpa using h1, h3⟩

/-- C57: for any history of `add` calls, the id shown for a dictionary is `OP<n>`, where `n - 1` is the
number of successful calls before the last call with that dictionary; if that call succeeded, the
results shown are the ones of that call, its plots are listed under `OP<n>/` and the files are there. -/
theorem C57_id (pre post : List Call) (c : Call) (s : State) (h0 : s.ops = []) (hlast : ∀ c' ∈ post, c'.op ≠ c.op) :
    let n := (run pre s).2.count true + 1
    let fin := (run (pre ++ c :: post) s).1
    ∃ id : Str, IdOf n id ∧ Dict.get? (fin.dicts c.op) "id".toList = some (.str id) ∧
      (succeeds (add c (run pre s).1).2 = true → ∃ r d,
        (c.given = some r ∨ c.given = none ∧ c.built = .ok r) ∧
        Dict.get? (fin.dicts c.op) "results".toList = some (.sections r) ∧
        Dict.get? (fin.dicts c.op) "plots".toList = some (.plots d) ∧ PlotPaths plotClasses id d ∧
        (s.outdir ≠ [] → s.outdir.getLast? ≠ some '/' → ∀ cls ∈ plotClasses,
          s.outdir ++ "/".toList ++ id ++ "/".toList ++ cls ++ ".pdf".toList ∈ fin.files) ∧
        ((∀ c' ∈ post, c'.given ≠ some r ∧ (c'.given = none → c'.built ≠ .ok r)) → fin.resId r = some n)) := by
  intro n fin
  have hfin : fin = (run post (add c (run pre s).1).1).1 := by
    show (run (pre ++ c :: post) s).1 = _
    rw [run_append]; rfl
  obtain ⟨-, hlen, -, hout, -⟩ := run_ops pre s
  rw [h0, List.length_nil, Nat.zero_add] at hlen
  have hn : (run pre s).1.ops.length + 1 = n := by rw [hlen]
  have ha := add_spec c (run pre s).1
  have hd : fin.dicts c.op = (add c (run pre s).1).1.dicts c.op := by
    rw [hfin]; exact run_untouched _ _ _ hlast
  refine ⟨opId n, opId_spec n, ?_, ?_⟩
  · rw [hd, ← hn]; exact ha.id
  · intro hs
    obtain ⟨r, d, hr, h1, h2, h3, h4, h5, h6⟩ := ha.success hs
    have hcls : ∀ cls ∈ plotClasses, ∀ x ∈ (cls ++ ".pdf".toList).head?, x ≠ '/' := by decide +kernel
    refine ⟨r, d, ?_, ?_, ?_, ⟨?_, h5⟩, ?_, ?_⟩
    · unfold theResults at hr
      cases hg : c.given with
      | none => rw [hg] at hr; exact .inr ⟨rfl, hr⟩
      | some r' => rw [hg] at hr; cases hr; exact .inl rfl
    · rw [hd]; exact h2
    · rw [hd]; exact h3
    · intro cls hc
      rw [h4 cls hc, hn, join_id n _ (hcls cls hc)]
      simp
    · intro ho ho' cls hc
      have := (run_ops post (add c (run pre s).1).1).2.2.2.2.subset (h6 cls hc)
      rw [hfin]
      have hj : pathJoin (pathJoin s.outdir [opId n]) [cls ++ ".pdf".toList] =
          s.outdir ++ "/".toList ++ opId n ++ "/".toList ++ cls ++ ".pdf".toList := by
        have hne : opId n ≠ [] := by simp [opId]
        have hl : (opId n).getLast? ≠ some '/' := by
          have hne' := fmtNat_ne_nil n
          have e : (opId n).getLast? = (fmtNat n).getLast? := by
            rw [opId]
            cases h : fmtNat n with
            | nil => exact absurd h hne'
            | cons a l => rfl
          rw [e, List.getLast?_eq_some_getLast hne']
          have hd := (allDig_fmtNat n).isDigit _ (List.getLast_mem hne')
          intro h0
          rw [Option.some.inj h0] at hd
          exact absurd hd (by decide)
        have hl' : (s.outdir ++ '/' :: opId n).getLast? ≠ some '/' := by
          rw [List.getLast?_append_of_ne_nil _ (by simp), List.getLast?_cons]
          cases h : (opId n).getLast? with
          | none => exact absurd (List.getLast?_eq_none_iff.1 h) hne
          | some a => rw [h] at hl; simpa using hl
        rw [join_dir s.outdir (opId n) ho ho' (by intro x hx; cases hx; decide),
          join_dir _ _ (by simp) hl' (hcls cls hc)]
        simp
      rw [← hj, ← hn, ← hout]
      exact this
    · intro hno
      have hno' : ∀ c' ∈ post, theResults c' ≠ .ok r := by
        intro c' hc' he
        obtain ⟨a1, a2⟩ := hno c' hc'
        unfold theResults at he
        cases hg : c'.given with
        | none => rw [hg] at he; exact a2 hg he
        | some r' => rw [hg] at he; cases he; exact a1 hg
      rw [hfin, run_resId _ _ _ hno', ← hn]; exact h1

/-- What counts as no name: `None`, the empty text, an empty dictionary, a false value of another type. -/
def Spec.NoName : OpVal → Prop
  | .none => True
  | .str s => s = []
  | .plots d => d = []
  | .sections _ => False
  | .other b _ => b = false

theorem truthy_iff (v : OpVal) : v.truthy = false ↔ Spec.NoName v := by
  cases v <;> simp [OpVal.truthy, Spec.NoName]

/-- C57: the name shown for a dictionary: a non-empty name is kept; an empty one becomes the id at the
time of the first call and stays; a dictionary without the key is never added. -/
theorem C57_name (pre post : List Call) (c : Call) (s : State) (h0 : s.ops = []) (hfirst : ∀ c' ∈ pre, c'.op ≠ c.op) :
    let n := (run pre s).2.count true + 1
    let fin := (run (pre ++ c :: post) s).1
    (∀ v, Dict.get? (s.dicts c.op) "name".toList = some v → ¬ Spec.NoName v →
      Dict.get? (fin.dicts c.op) "name".toList = some v) ∧
    (∀ v, Dict.get? (s.dicts c.op) "name".toList = some v → Spec.NoName v →
      ∃ id : Str, IdOf n id ∧ Dict.get? (fin.dicts c.op) "name".toList = some (.str id)) ∧
    (Dict.get? (s.dicts c.op) "name".toList = none →
      (add c (run pre s).1).2 = .error .keyError ∧ c.op ∉ (run pre s).1.ops) := by
  intro n fin
  have hfin : fin = (run post (add c (run pre s).1).1).1 := by
    show (run (pre ++ c :: post) s).1 = _
    rw [run_append]; rfl
  obtain ⟨hops, hlen, -, -, -⟩ := run_ops pre s
  rw [h0, List.length_nil, Nat.zero_add] at hlen
  have hn : (run pre s).1.ops.length + 1 = n := by rw [hlen]
  have ha := add_spec c (run pre s).1
  have hd : (run pre s).1.dicts c.op = s.dicts c.op := run_untouched _ _ _ hfirst
  refine ⟨?_, ?_, ?_⟩
  · intro v hv ht
    replace ht : v.truthy = true := by rw [← truthy_iff] at ht; simpa using ht
    exact run_name _ _ _ v (by rw [hfin] at *; exact hv) ht
  · intro v hv ht
    replace ht := (truthy_iff v).2 ht
    refine ⟨opId n, opId_spec n, ?_⟩
    rw [hfin]
    refine run_name _ _ _ _ ?_ (by simp [OpVal.truthy, opId])
    rw [← hn]
    exact ha.name_default v (by rw [hd]; exact hv) ht
  · intro hv
    refine ⟨(ha.name_missing (by rw [hd]; exact hv)).1, ?_⟩
    rw [hops, h0]
    intro hm
    simp only [List.nil_append, List.mem_map, List.mem_filter] at hm
    obtain ⟨⟨c', b⟩, ⟨hz, -⟩, he⟩ := hm
    exact hfirst c' (List.of_mem_zip hz).1 he

/-- C57: with a separate dictionary for every call the k-th entry has the id `OP<k>`, so the ids are
distinct and in order. -/
theorem C57_ids (cs : List Call) (s : State) (h0 : s.ops = []) (hd : (cs.map (·.op)).Nodup) (k r : ℕ)
    (hk : (run cs s).1.ops[k]? = some r) :
    ∃ id : Str, IdOf (k + 1) id ∧ Dict.get? ((run cs s).1.dicts r) "id".toList = some (.str id) := by
  induction cs using List.reverseRecOn generalizing k r with
  | nil => rw [run, h0] at hk; simp at hk
  | append_singleton cs c ih =>
    have e : (run (cs ++ [c]) s).1 = (add c (run cs s).1).1 := by rw [run_append]; rfl
    have ha := add_spec c (run cs s).1
    obtain ⟨hops, hlen, -⟩ := run_ops cs s
    rw [h0, List.length_nil, Nat.zero_add] at hlen
    rw [List.map_append, List.nodup_append] at hd
    obtain ⟨hd1, -, hd2⟩ := hd
    by_cases hr : r = c.op
    · subst hr
      have hnm : c.op ∉ (run cs s).1.ops := by
        rw [hops, h0]
        intro hm
        simp only [List.nil_append, List.mem_map, List.mem_filter] at hm
        obtain ⟨⟨c', b⟩, ⟨hz, -⟩, he⟩ := hm
        exact hd2 c.op (List.mem_map.2 ⟨c', (List.of_mem_zip hz).1, he⟩) c.op (by simp) rfl
      rw [e, ha.ops] at hk
      split at hk
      · have hk' : k = (run cs s).1.ops.length := by
          rcases lt_trichotomy k (run cs s).1.ops.length with h | h | h
          · rw [List.getElem?_append_left h] at hk
            exact absurd (List.mem_of_getElem? hk) hnm
          · exact h
          · rw [List.getElem?_eq_none (by simp; omega)] at hk
            cases hk
        rw [e, hk']
        exact ⟨_, opId_spec _, ha.id⟩
      · exact absurd (List.mem_of_getElem? hk) hnm
    · have hk' : (run cs s).1.ops[k]? = some r := by
        rw [e, ha.ops] at hk
        split at hk
        · rcases lt_or_ge k (run cs s).1.ops.length with h | h
          · rwa [List.getElem?_append_left h] at hk
          · rw [List.getElem?_append_right h] at hk
            have := List.mem_of_getElem? hk
            rw [List.mem_singleton] at this
            exact absurd this hr
        · exact hk
      rw [e, ha.others r hr]
      exact ih hd1 k r hk'

/-- C57: adding one dictionary twice makes one entry of two: both show the later id, the name stays
the earlier one. -/
theorem C57_alias (c c' : Call) (s : State) (h0 : s.ops = []) (hc : c'.op = c.op) (v : OpVal)
    (hv : Dict.get? (s.dicts c.op) "name".toList = some v) (hno : Spec.NoName v)
    (h1 : succeeds (add c s).2 = true) (h2 : succeeds (add c' (add c s).1).2 = true) :
    let fin := (run [c, c'] s).1
    fin.ops = [c.op, c.op] ∧ Dict.get? (fin.dicts c.op) "id".toList = some (.str "OP2".toList) ∧
      Dict.get? (fin.dicts c.op) "name".toList = some (.str "OP1".toList) := by
  intro fin
  have ht := (truthy_iff v).2 hno
  have e : fin = (add c' (add c s).1).1 := rfl
  have ha := add_spec c s
  have hb := add_spec c' (add c s).1
  have o1 : (add c s).1.ops = [c.op] := by rw [ha.ops, h1, h0]; rfl
  rw [e]
  refine ⟨by rw [hb.ops, h2, o1, hc]; rfl, ?_, ?_⟩
  · have := hb.id
    rw [o1, hc] at this
    exact this.trans (show some (OpVal.str (opId 2)) = _ by decide +kernel)
  · have h3 := ha.name_default v hv ht
    have := hb.name_kept _ (by rw [hc]; exact h3) rfl
    rw [hc] at this
    rw [h0] at this
    exact this.trans (by decide +kernel)

/-! ### a case -/

namespace Report

/-- two dictionaries; the second call fails while drawing -/
def sampleCall (op : ℕ) (fails : Bool) : Call where
  op := op
  given := none
  built := .ok (10 + op)
  sections := .ok ()
  mkdir := .ok ()
  draw := fun cls => if fails && cls == "PlotSNR".toList then .error .valueError else .ok ()

def sampleState : State where
  outdir := "/tmp/report".toList
  dicts := fun _ => [("name".toList, .none), ("id".toList, .none)]
  resId := fun _ => none
  ops := []
  files := []

example : (run [sampleCall 0 false, sampleCall 1 true, sampleCall 2 false] sampleState).2 = [true, false, true] := by
  decide +kernel

example : (run [sampleCall 0 false, sampleCall 1 true, sampleCall 2 false] sampleState).1.ops = [0, 2] := by
  decide +kernel

example : Dict.get? ((run [sampleCall 0 false, sampleCall 1 true, sampleCall 2 false] sampleState).1.dicts 2) "id".toList =
    some (.str "OP2".toList) := by
  decide +kernel

/-- the dictionary of the failed call shows the id given to the next one -/
example : Dict.get? ((run [sampleCall 0 false, sampleCall 1 true, sampleCall 2 false] sampleState).1.dicts 1) "id".toList =
    some (.str "OP2".toList) := by
  decide +kernel

example : "/tmp/report/OP2/PlotSNR.pdf".toList ∈
    (run [sampleCall 0 false, sampleCall 1 true, sampleCall 2 false] sampleState).1.files := by
  decide +kernel

end Report
end Emva
