import Verif.Spec.ReportDirs
import Verif.Lemmas.DatasetGenerator
import Verif.Props.C65
import Mathlib.Data.List.TakeWhile

/-!
Lemmas about paths and file system operations.
-/
set_option autoImplicit false
namespace Emva
namespace ReportDirs
open Py Spec Gen

/-! ### paths -/

theorem components_proper {s : Str} (h : '/' ∉ s) : splitOnChar '/' s = [s] :=
  splitOnChar_none '/' fun c hc e => h (e ▸ hc)

theorem basename_noslash (s : Str) : '/' ∉ basename s := by
  intro h
  have := List.mem_takeWhile_imp (List.mem_reverse.1 h)
  simp at this

/-- a name is its base name, or ends in a slash and the base name -/
theorem basename_split (s : Str) : s = basename s ∨ ∃ a, s = a ++ '/' :: basename s := by
  have h := List.takeWhile_append_dropWhile (p := (· != '/')) (l := s.reverse)
  cases hd : s.reverse.dropWhile (· != '/') with
  | nil =>
    left
    rw [hd, List.append_nil] at h
    rw [basename, h, List.reverse_reverse]
  | cons c t =>
    right
    have hc : c = '/' := by
      have := List.head_dropWhile_not (p := (· != '/')) (l := s.reverse) (by rw [hd]; simp)
      simpa [hd] using this
    refine ⟨t.reverse, ?_⟩
    rw [hd, hc] at h
    have := congrArg List.reverse h
    rw [List.reverse_reverse] at this
    rw [List.reverse_append, List.reverse_cons, List.append_assoc] at this
    exact this.symm

theorem abspath_basename {s : Str} (cwd : Path) (h : Proper (basename s)) :
    ∃ p, abspath cwd s = p ++ [basename s] := by
  have key : ∃ l, splitOnChar '/' s = l ++ [basename s] := by
    rcases basename_split s with e | ⟨a, e⟩
    · exact ⟨[], by rw [components_proper (by rw [e]; exact basename_noslash s), ← e]; rfl⟩
    · refine ⟨splitOnChar '/' a, ?_⟩
      have := splitOnChar_append '/' a (basename s)
      rw [components_proper (basename_noslash s), ← e] at this
      exact this
  obtain ⟨l, hl⟩ := key
  refine ⟨l.foldl normStep (if startsWith s ['/'] then [] else cwd), ?_⟩
  rw [abspath, hl, List.foldl_append]
  simp [normStep, h.1, h.2.1, h.2.2.1]

theorem startsWith_slash {c : Char} {s : Str} (h : c ≠ '/') : startsWith (c :: s) ['/'] = false := by
  simp [startsWith, List.isPrefixOf, Ne.symm h]

/-- the two places where the report keeps files -/
theorem abspath_upload (out : Path) {b : Str} (h : Proper b) :
    abspath out (pathJoin "upload".toList [b]) = out ++ ["upload".toList, b] := by
  have hl := splitOnChar_append '/' "upload".toList b
  have e : pathJoin "upload".toList [b] = "upload".toList ++ '/' :: b := by
    have : startsWith b ['/'] = false := by
      cases b with
      | nil => rfl
      | cons c s => exact startsWith_slash fun e => h.2.2.2 (by simp [e])
    simp [pathJoin, join1, this, endsWithChar]
  rw [e, abspath, hl, components_proper h.2.2.2]
  simp [splitOnChar, normStep, h.1, h.2.1, h.2.2.1, startsWith, List.isPrefixOf]

theorem abspath_files (out : Path) {b : Str} (h : Proper b) :
    abspath out (pathJoin "files".toList [b]) = out ++ ["files".toList, b] := by
  have hl := splitOnChar_append '/' "files".toList b
  have e : pathJoin "files".toList [b] = "files".toList ++ '/' :: b := by
    have : startsWith b ['/'] = false := by
      cases b with
      | nil => rfl
      | cons c s => exact startsWith_slash fun e => h.2.2.2 (by simp [e])
    simp [pathJoin, join1, this, endsWithChar]
  rw [e, abspath, hl, components_proper h.2.2.2]
  simp [splitOnChar, normStep, h.1, h.2.1, h.2.2.1, startsWith, List.isPrefixOf]

/-! ### the operations on files -/

/-- `fs'` is a file system that differs from `fs` only by new nodes at the paths `P` and by files at the paths `Q`. -/
structure Only (P Q : Path → Prop) (fs fs' : FS) : Prop where
  tree : TreeFS fs'
  dirs : ∀ p, fs p = some .dir → fs' p = some .dir
  kept : ∀ p, fs p ≠ none → fs' p ≠ none
  only : ∀ p, fs' p ≠ fs p → (fs p = none ∧ P p) ∨ Q p

theorem Only.rfl' {P Q : Path → Prop} {fs : FS} (h : TreeFS fs) : Only P Q fs fs :=
  ⟨h, fun _ h => h, fun _ h => h, fun _ h => absurd rfl h⟩

theorem Only.trans {P Q : Path → Prop} {a b c : FS} (h : Only P Q a b) (h' : Only P Q b c) : Only P Q a c := by
  refine ⟨h'.tree, fun p e => h'.dirs p (h.dirs p e), fun p e => h'.kept p (h.kept p e), fun p e => ?_⟩
  by_cases e1 : b p = a p
  · have := h'.only p (by rw [e1]; exact e)
    rwa [e1] at this
  · exact h.only p e1

theorem Only.mono {P Q P' Q' : Path → Prop} {a b : FS} (h : Only P Q a b) (hP : ∀ p, P p → P' p)
    (hQ : ∀ p, Q p → Q' p) : Only P' Q' a b :=
  ⟨h.tree, h.dirs, h.kept, fun p e => (h.only p e).imp (fun x => ⟨x.1, hP _ x.2⟩) (hQ _)⟩

theorem put_self (fs : FS) (p : Path) (n : Node) : fs.put p n p = some n := Function.update_self ..

theorem put_ne (fs : FS) {p q : Path} (n : Node) (h : q ≠ p) : fs.put p n q = fs q := Function.update_of_ne h ..

theorem put_only {fs : FS} (ht : TreeFS fs) {p : Path} (n : Node) (hp : fs p.dropLast = some .dir) (h0 : p ≠ [])
    (hd : fs p ≠ some .dir) : Only (fun _ => False) (· = p) fs (fs.put p n) := by
  have hne : p.dropLast ≠ p := fun e => by
    have := congrArg List.length e
    rw [List.length_dropLast] at this
    have := List.length_pos_iff.2 h0
    omega
  refine ⟨⟨?_, fun q c e => ?_⟩, fun q e => ?_, fun q e => ?_, fun q e => ?_⟩
  · rw [put_ne _ _ (Ne.symm h0)]; exact ht.root
  · by_cases e1 : q ++ [c] = p
    · have : q = p.dropLast := by rw [← e1]; simp
      rw [this, put_ne _ _ hne]; exact hp
    · rw [put_ne _ _ e1] at e
      have := ht.parent q c e
      rw [put_ne _ _ fun e2 => hd (by rw [← e2]; exact this)]
      exact this
  · rw [put_ne _ _ fun e2 => hd (by rw [← e2]; exact e)]; exact e
  · by_cases e1 : q = p
    · rw [e1, put_self]; simp
    · rw [put_ne _ _ e1]; exact e
  · by_cases e1 : q = p
    · exact .inr e1
    · exact absurd (put_ne _ _ e1) e

theorem put_new {fs : FS} (ht : TreeFS fs) {p : Path} (n : Node) (hp : fs p.dropLast = some .dir)
    (hd : fs p = none) : Only (· = p) (fun _ => False) fs (fs.put p n) := by
  have h0 : p ≠ [] := by
    rintro rfl
    rw [ht.root] at hd
    exact absurd hd (by simp)
  have := put_only ht n hp h0 (by rw [hd]; simp)
  exact ⟨this.tree, this.dirs, this.kept, fun q e => by
    rcases this.only q e with h | h
    · exact h.2.elim
    · exact .inl ⟨h ▸ hd, h⟩⟩

theorem mkdir_spec {fs : FS} (ht : TreeFS fs) (p : Path) :
    Only (· = p) (fun _ => False) fs (mkdir p fs).1 ∧
      ((mkdir p fs).2 = .ok () → (mkdir p fs).1 p = some .dir) ∧
      ((mkdir p fs).2 = .error .fileExistsError → (mkdir p fs).1 = fs ∧ fs p ≠ none) ∧
      (fs p = none → fs p.dropLast = some .dir → (mkdir p fs).2 = .ok ()) ∧
      (fs p ≠ none → mkdir p fs = (fs, .error .fileExistsError)) := by
  unfold mkdir
  cases h : fs p with
  | some n => simp [Only.rfl' ht]
  | none =>
    cases h' : fs p.dropLast with
    | none => simp [Only.rfl' ht]
    | some n =>
      cases n with
      | file c => simp [Only.rfl' ht]
      | dir => simp [put_new ht .dir h' h, put_self]

theorem makedirsRev_spec (l : List Str) : ∀ {fs : FS}, TreeFS fs →
    Only (· <+: l.reverse) (fun _ => False) fs (makedirsRev l fs).1 ∧
      ((makedirsRev l fs).2 = .ok () → (makedirsRev l fs).1 l.reverse = some .dir) ∧
      ((makedirsRev l fs).2 = .error .fileExistsError → fs l.reverse ≠ none) ∧
      ((∀ q, q <+: l.reverse → fs q ≠ none → fs q = some .dir) → fs l.reverse = none →
        (makedirsRev l fs).2 = .ok ()) ∧
      (fs l.reverse ≠ none → makedirsRev l fs = (fs, .error .fileExistsError)) := by
  induction l with
  | nil =>
    intro fs ht
    have := mkdir_spec ht []
    refine ⟨this.1.mono (fun p e => by simp [e]) fun _ h => h, this.2.1, fun h => (this.2.2.1 h).2, ?_, this.2.2.2.2⟩
    intro _ e
    rw [List.reverse_nil, ht.root] at e
    exact absurd e (by simp)
  | cons t h ih =>
    intro fs ht
    have hrev : (t :: h).reverse = h.reverse ++ [t] := List.reverse_cons
    have hdl : (t :: h).reverse.dropLast = h.reverse := by simp
    have hP : ∀ p, p = (t :: h).reverse → p <+: (t :: h).reverse := fun p e => by simp [e]
    have hP' : ∀ p, p <+: h.reverse → p <+: (t :: h).reverse := fun p e => by
      rw [hrev]; exact e.trans (List.prefix_append ..)
    by_cases hn : fs h.reverse = none
    · obtain ⟨i1, i2, i3, i4, i5⟩ := ih ht
      have hnone : fs (t :: h).reverse = none := by
        by_contra e
        rw [hrev] at e
        rw [ht.parent _ _ e] at hn
        exact absurd hn (by simp)
      have hnone' : (makedirsRev h fs).1 (t :: h).reverse = none := by
        by_contra e
        rcases i1.only _ (by rw [hnone]; exact e) with h' | h'
        · have := h'.2.length_le
          simp at this
        · exact h'
      cases hm : makedirsRev h fs with
      | mk fs1 r =>
        rw [hm] at i1 i2 i3 i4 i5 hnone'
        simp only at i1 i2 i3 i4 i5 hnone'
        have hk := mkdir_spec i1.tree (t :: h).reverse
        cases r with
        | ok u =>
          rw [show makedirsRev (t :: h) fs = mkdir (t :: h).reverse fs1 by rw [makedirsRev, if_pos hn, hm]]
          refine ⟨(i1.mono hP' fun _ h => h).trans (hk.1.mono hP fun _ h => h), hk.2.1,
            fun e => absurd hnone' (hk.2.2.1 e).2, ?_, fun e => absurd hnone e⟩
          intro _ _
          exact hk.2.2.2.1 hnone' (by rw [hdl]; exact i2 rfl)
        | error e =>
          by_cases he : e = .fileExistsError
          · exact absurd hn (i3 (by rw [he]))
          · have : makedirsRev (t :: h) fs = (fs1, .error e) := by
              rw [makedirsRev, if_pos hn, hm]
              cases e <;> first | rfl | exact absurd rfl he
            rw [this]
            refine ⟨i1.mono hP' fun _ h => h, by simp, by simp [he], ?_, fun e => absurd hnone e⟩
            intro hq _
            exact absurd (i4 (fun q hq' => hq q (hP' q hq')) hn) (by simp)
    · have hk := mkdir_spec ht (t :: h).reverse
      rw [show makedirsRev (t :: h) fs = mkdir (t :: h).reverse fs by rw [makedirsRev, if_neg hn]]
      refine ⟨hk.1.mono hP fun _ h => h, hk.2.1, fun e => (hk.2.2.1 e).2, fun hq e => ?_, hk.2.2.2.2⟩
      exact hk.2.2.2.1 e (by rw [hdl]; exact hq _ (hP' _ (List.prefix_refl _)) hn)

theorem makedirs_spec {fs : FS} (ht : TreeFS fs) (p : Path) :
    Only (· <+: p) (fun _ => False) fs (makedirs p fs).1 ∧
      ((makedirs p fs).2 = .ok () → (makedirs p fs).1 p = some .dir) ∧
      ((makedirs p fs).2 = .error .fileExistsError → fs p ≠ none) ∧
      ((∀ q, q <+: p → fs q ≠ none → fs q = some .dir) → fs p = none → (makedirs p fs).2 = .ok ()) ∧
      (fs p ≠ none → makedirs p fs = (fs, .error .fileExistsError)) := by
  have := makedirsRev_spec p.reverse ht
  rw [List.reverse_reverse] at this
  exact this

theorem fold_put {dst : Path} (pkg : List (Str × ℕ)) : ∀ {fs : FS}, TreeFS fs → fs dst = some .dir →
    (∀ x ∈ pkg, fs (dst ++ [x.1]) ≠ some .dir) →
    Only (fun _ => False) (fun p => ∃ x ∈ pkg, p = dst ++ [x.1]) fs
        (pkg.foldl (fun fs f => fs.put (dst ++ [f.1]) (.file f.2)) fs) ∧
      ((pkg.map (·.1)).Nodup → ∀ x ∈ pkg,
        pkg.foldl (fun fs f => fs.put (dst ++ [f.1]) (.file f.2)) fs (dst ++ [x.1]) = some (.file x.2)) := by
  induction pkg with
  | nil => intro fs ht _ _; exact ⟨Only.rfl' ht, by simp⟩
  | cons a l ih =>
    intro fs ht hd hn
    have h1 := put_only ht (p := dst ++ [a.1]) (.file a.2) (by simpa using hd) (by simp) (hn a (by simp))
    have h2 := ih h1.tree (h1.dirs _ hd) fun x hx e => by
      by_cases e1 : dst ++ [x.1] = dst ++ [a.1]
      · rw [e1, put_self] at e; simp at e
      · rw [put_ne _ _ e1] at e; exact hn x (by simp [hx]) e
    refine ⟨(h1.mono (fun _ h => h) fun p e => ⟨a, by simp, e⟩).trans
      (h2.1.mono (fun _ h => h) fun p ⟨x, hx, e⟩ => ⟨x, by simp [hx], e⟩), fun hnd x hx => ?_⟩
    rw [List.map_cons, List.nodup_cons] at hnd
    rcases List.mem_cons.1 hx with rfl | hx
    · rw [List.foldl_cons]
      by_contra e
      rcases h2.1.only (dst ++ [x.1]) (by rw [put_self]; exact e) with h | ⟨y, hy, e⟩
      · exact h.2
      · have : x.1 = y.1 := by simpa using e
        exact hnd.1 (List.mem_map.2 ⟨y, hy, this.symm⟩)
    · exact h2.2 hnd.2 x hx

theorem copytree_spec {fs : FS} (ht : TreeFS fs) (pkg : List (Str × ℕ)) (dst : Path) :
    Only (fun p => p <+: dst ∨ ∃ x ∈ pkg, p = dst ++ [x.1]) (fun _ => False) fs (copytree pkg dst fs).1 ∧
      ((copytree pkg dst fs).2 = .ok () → (copytree pkg dst fs).1 dst = some .dir ∧
        ((pkg.map (·.1)).Nodup → ∀ x ∈ pkg, (copytree pkg dst fs).1 (dst ++ [x.1]) = some (.file x.2))) ∧
      (copytree pkg dst fs).2 = (makedirs dst fs).2 := by
  obtain ⟨h1, h2, h3, h4, h5⟩ := makedirs_spec ht dst
  unfold copytree
  cases hm : makedirs dst fs with
  | mk fs1 r =>
    rw [hm] at h1 h2 h3 h4
    cases r with
    | error e => exact ⟨h1.mono (fun _ h => .inl h) fun _ h => h, by simp, rfl⟩
    | ok u =>
      simp only at h1 h2 ⊢
      have hd := h2 trivial
      have hn : fs dst = none := by
        by_contra e
        have := h5 e
        rw [hm] at this
        simp at this
      have hc : ∀ x : Str, fs (dst ++ [x]) = none := fun x => by
        by_contra e
        rw [ht.parent _ _ e] at hn
        exact absurd hn (by simp)
      have hc' : ∀ x : Str, fs1 (dst ++ [x]) = none := fun x => by
        by_contra e
        rcases h1.only _ (by rw [hc]; exact e) with h | h
        · have := h.2.length_le
          simp at this
        · exact h
      have hf := fold_put pkg h1.tree hd fun x _ => by rw [hc']; simp
      refine ⟨(h1.mono (fun _ h => .inl h) fun _ h => h).trans ?_, fun _ => ⟨hf.1.dirs _ hd, hf.2⟩, trivial⟩
      exact ⟨hf.1.tree, hf.1.dirs, hf.1.kept, fun p e => by
        rcases hf.1.only p e with h | ⟨x, hx, h⟩
        · exact h.2.elim
        · exact .inl ⟨by rw [h]; exact hc' _, .inr ⟨x, hx, h⟩⟩⟩

theorem unlessExists_fst (r : FS × Except PyErr Unit) : (unlessExists r).1 = r.1 := by
  obtain ⟨fs, r⟩ := r
  cases r with
  | ok u => rfl
  | error e => cases e <;> rfl

theorem unlessExists_ok (r : FS × Except PyErr Unit) :
    (unlessExists r).2 = .ok () ↔ r.2 = .ok () ∨ r.2 = .error .fileExistsError := by
  obtain ⟨fs, r⟩ := r
  cases r with
  | ok u => simp [unlessExists]
  | error e => cases e <;> simp [unlessExists]

theorem andThen_ok {r : FS × Except PyErr Unit} {k : FS → FS × Except PyErr Unit} (h : r.2 = .ok ()) :
    andThen r k = k r.1 := by
  obtain ⟨fs, r⟩ := r
  simp only at h
  subst h
  rfl

theorem andThen_err {r : FS × Except PyErr Unit} {k : FS → FS × Except PyErr Unit} (h : r.2 ≠ .ok ()) :
    andThen r k = r := by
  obtain ⟨fs, r⟩ := r
  cases r with
  | ok u => exact absurd rfl h
  | error e => rfl

/-- what the constructor may create -/
def Created (pkg : List (Str × ℕ)) (out p : Path) : Prop :=
  p <+: out ∨ p = out ++ ["files".toList] ∨ (∃ x ∈ pkg, p = out ++ ["files".toList, x.1]) ∨ p = out ++ ["upload".toList]

theorem prefix_snoc {p q : Path} {c : Str} (h : p <+: q ++ [c]) : p <+: q ∨ p = q ++ [c] := by
  rw [List.prefix_concat_iff] at h
  tauto

theorem directories_spec {fs : FS} (ht : TreeFS fs) (pkg : List (Str × ℕ)) (out : Path) :
    Only (Created pkg out) (fun _ => False) fs (directories pkg out fs).1 ∧
      ((directories pkg out fs).2 = .ok () → (directories pkg out fs).1 (out ++ ["upload".toList]) ≠ none ∧
        (fs (out ++ ["files".toList]) = none → (pkg.map (·.1)).Nodup → ∀ x ∈ pkg,
          (directories pkg out fs).1 (out ++ ["files".toList, x.1]) = some (.file x.2)) ∧
        (fs (out ++ ["upload".toList]) = none → (directories pkg out fs).1 (out ++ ["upload".toList]) = some .dir)) ∧
      ((∀ q, q <+: out → fs q ≠ none → fs q = some .dir) → (directories pkg out fs).2 = .ok ()) := by
  have c1 : ∀ p, p <+: out → Created pkg out p := fun p h => .inl h
  have c2 : ∀ p, (p <+: out ++ ["files".toList] ∨ ∃ x ∈ pkg, p = out ++ ["files".toList] ++ [x.1]) → Created pkg out p := by
    rintro p (h | ⟨x, hx, h⟩)
    · rcases prefix_snoc h with h | h
      · exact .inl h
      · exact .inr (.inl h)
    · exact .inr (.inr (.inl ⟨x, hx, by rw [h]; simp⟩))
  have c3 : ∀ p, p <+: out ++ ["upload".toList] → Created pkg out p := fun p h => by
    rcases prefix_snoc h with h | h
    · exact .inl h
    · exact .inr (.inr (.inr h))
  obtain ⟨a1, a2, a3, a4, a5⟩ := makedirs_spec ht out
  have A1 : Only (Created pkg out) (fun _ => False) fs (unlessExists (makedirs out fs)).1 := by
    rw [unlessExists_fst]; exact a1.mono c1 fun _ h => h
  have Aok : (∀ q, q <+: out → fs q ≠ none → fs q = some .dir) → (unlessExists (makedirs out fs)).2 = .ok () := by
    intro hq
    rw [unlessExists_ok]
    by_cases e : fs out = none
    · exact .inl (a4 hq e)
    · rw [a5 e]; exact .inr rfl
  have Ad : (unlessExists (makedirs out fs)).2 = .ok () → (∀ q, q <+: out → fs q ≠ none → fs q = some .dir) →
      (unlessExists (makedirs out fs)).1 out = some .dir := by
    intro h hq
    rw [unlessExists_fst]
    rcases (unlessExists_ok _).1 h with h | h
    · exact a2 h
    · exact a1.dirs _ (hq _ (List.prefix_refl _) (a3 h))
  unfold directories
  by_cases hA : (unlessExists (makedirs out fs)).2 = .ok ()
  swap
  · rw [andThen_err hA]
    exact ⟨A1, fun h => absurd h hA, fun h => absurd (Aok h) hA⟩
  rw [andThen_ok hA]
  generalize hfs1 : (unlessExists (makedirs out fs)).1 = fs1 at *
  obtain ⟨b1, b2, b3⟩ := copytree_spec A1.tree pkg (out ++ ["files".toList])
  obtain ⟨m1, m2, m3, m4, m5⟩ := makedirs_spec A1.tree (out ++ ["files".toList])
  have B1 : Only (Created pkg out) (fun _ => False) fs (unlessExists (copytree pkg (out ++ ["files".toList]) fs1)).1 := by
    rw [unlessExists_fst]; exact A1.trans (b1.mono c2 fun _ h => h)
  have Bok : (∀ q, q <+: out → fs q ≠ none → fs q = some .dir) →
      (unlessExists (copytree pkg (out ++ ["files".toList]) fs1)).2 = .ok () := by
    intro hq
    rw [unlessExists_ok, b3]
    by_cases e : fs1 (out ++ ["files".toList]) = none
    · refine .inl (m4 (fun q hq' hn => ?_) e)
      rcases prefix_snoc hq' with h | h
      · by_cases hl : q = out
        · rw [hl]; exact Ad hA hq
        · obtain ⟨t, rfl⟩ := h
          cases t with
          | nil => simp at hl
          | cons c t =>
            have hne : ∀ (t : Path) (c : Str), fs1 (q ++ c :: t) = some .dir → fs1 q = some .dir := by
              intro t
              induction t using List.reverseRecOn with
              | nil => intro c h; exact A1.tree.parent q c (by rw [h]; simp)
              | append_singleton t x ih =>
                intro c h
                refine ih c (A1.tree.parent (q ++ c :: t) x ?_)
                rw [List.append_assoc, List.cons_append, h]; simp
            exact hne t c (Ad hA hq)
      · rw [h] at hn; exact absurd e hn
    · rw [m5 e]; exact .inr rfl
  by_cases hB : (unlessExists (copytree pkg (out ++ ["files".toList]) fs1)).2 = .ok ()
  swap
  · rw [andThen_err hB]
    exact ⟨B1, fun h => absurd h hB, fun h => absurd (Bok h) hB⟩
  rw [andThen_ok hB]
  have Bf : fs (out ++ ["files".toList]) = none → (pkg.map (·.1)).Nodup → ∀ x ∈ pkg,
      (unlessExists (copytree pkg (out ++ ["files".toList]) fs1)).1 (out ++ ["files".toList, x.1]) = some (.file x.2) := by
    intro hn hnd x hx
    rw [unlessExists_fst]
    rcases (unlessExists_ok _).1 hB with h | h
    · have := (b2 h).2 hnd x hx
      rwa [List.append_assoc] at this
    · rw [b3] at h
      have := m3 h
      rcases A1.only (out ++ ["files".toList]) (by rw [hn]; exact this) with h' | h'
      · rw [← hfs1, unlessExists_fst] at this
        rcases a1.only (out ++ ["files".toList]) (by rw [hn]; exact this) with h' | h'
        · have := h'.2.length_le
          simp at this
        · exact h'.elim
      · exact h'.elim
  have Bd : fs1 (out ++ ["files".toList]) ≠ none ∨ (unlessExists (copytree pkg (out ++ ["files".toList]) fs1)).1
      (out ++ ["files".toList]) ≠ none := by
    rcases (unlessExists_ok _).1 hB with h | h
    · right; rw [unlessExists_fst, (b2 h).1]; simp
    · rw [b3] at h
      exact .inl (m3 h)
  have Bo : (unlessExists (copytree pkg (out ++ ["files".toList]) fs1)).1 out = some .dir := by
    refine B1.tree.parent out "files".toList ?_
    rcases Bd with h | h
    · rw [unlessExists_fst]; exact b1.kept _ h
    · exact h
  have Bu : fs (out ++ ["upload".toList]) = none →
      (unlessExists (copytree pkg (out ++ ["files".toList]) fs1)).1 (out ++ ["upload".toList]) = none := by
    intro hn
    by_contra e
    have h1 : fs1 (out ++ ["upload".toList]) = none := by
      by_contra e1
      rw [← hfs1, unlessExists_fst] at e1
      rcases a1.only _ (by rw [hn]; exact e1) with h | h
      · have := h.2.length_le
        simp at this
      · exact h
    rw [unlessExists_fst] at e
    rcases b1.only _ (by rw [h1]; exact e) with ⟨_, h | ⟨x, _, h⟩⟩ | h
    · rcases prefix_snoc h with h | h
      · have := h.length_le
        simp at this
      · simp at h
    · rw [List.append_assoc] at h
      simp at h
    · exact h
  generalize hfs2 : (unlessExists (copytree pkg (out ++ ["files".toList]) fs1)).1 = fs2 at *
  obtain ⟨u1, u2, u3, u4, u5⟩ := makedirs_spec B1.tree (out ++ ["upload".toList])
  have U1 : Only (Created pkg out) (fun _ => False) fs2 (unlessExists (makedirs (out ++ ["upload".toList]) fs2)).1 := by
    rw [unlessExists_fst]; exact u1.mono c3 fun _ h => h
  refine ⟨B1.trans U1, fun h => ⟨?_, fun hn hnd x hx => ?_, fun hn => ?_⟩, fun hq => ?_⟩
  · rw [unlessExists_fst]
    rcases (unlessExists_ok _).1 h with h | h
    · rw [u2 h]; simp
    · exact u1.kept _ (u3 h)
  · have := Bf hn hnd x hx
    by_contra e
    rcases U1.only _ (by rw [this]; exact e) with h | h
    · rw [this] at h; exact absurd h.1 (by simp)
    · exact h
  · rw [unlessExists_fst]
    rcases (unlessExists_ok _).1 h with h | h
    · exact u2 h
    · exact absurd (Bu hn) (u3 h)
  · rw [unlessExists_ok]
    by_cases e : fs2 (out ++ ["upload".toList]) = none
    · left
      have : makedirs (out ++ ["upload".toList]) fs2 = mkdir (out ++ ["upload".toList]) fs2 := by
        rw [makedirs, List.reverse_append]
        simp only [List.reverse_cons, List.reverse_nil, List.nil_append, List.cons_append, makedirsRev, List.reverse_reverse]
        rw [if_neg (by rw [Bo]; simp)]
      rw [this]
      exact (mkdir_spec B1.tree _).2.2.2.1 e (by simpa using Bo)
    · rw [u5 e]; exact .inr rfl

/-- a copied file -/
theorem copy_spec {fs : FS} {src upload : Path} (hu : fs upload = some .dir) :
    (∀ e, (copy src upload fs).2 = .error e → (copy src upload fs).1 = fs) ∧
      ((copy src upload fs).2 = .ok () → ∃ c, fs src = some (.file c) ∧ src ≠ upload ++ [src.getLastD []] ∧
        fs (upload ++ [src.getLastD []]) ≠ some .dir ∧
        (copy src upload fs).1 = fs.put (upload ++ [src.getLastD []]) (.file c)) ∧
      (∀ c, fs src = some (.file c) → src ≠ upload ++ [src.getLastD []] → fs (upload ++ [src.getLastD []]) ≠ some .dir →
        (copy src upload fs).2 = .ok ()) ∧
      (fs src = none → copy src upload fs = (fs, .error .fileNotFoundError)) := by
  unfold copy
  simp only [hu, if_true]
  have hp : fs (upload ++ [src.getLastD []]).dropLast = some .dir := by simpa using hu
  revert hp
  generalize upload ++ [src.getLastD []] = dst
  intro hp
  cases h : fs src with
  | none => simp
  | some n =>
    cases n with
    | dir => simp
    | file c =>
      simp only
      split
      · next e => exact ⟨by simp, by simp, fun _ _ h => absurd e h, by simp⟩
      · next e =>
        cases h' : fs dst with
        | none => simp [hp, e]
        | some n =>
          cases n with
          | dir => simp
          | file c' => simp [hp, e]

theorem place_err {cwd upload : Path} {k default : Str} {d : Info} {fs : FS} (hu : fs upload = some .dir) {e : PyErr}
    (h : (place cwd upload k default d fs).2 = .error e) : (place cwd upload k default d fs).1 = (fs, d) := by
  unfold place at h ⊢
  split
  · rfl
  · next v hv =>
    rw [hv] at h
    simp only at h
    unfold uploadedFile at h ⊢
    split
    · next fs' e' h' =>
      split at h'
      · next c f =>
        split at h'
        · next fs'' e'' h'' =>
          have := (copy_spec (src := abspath cwd (c :: f)) hu).1 e'' (by rw [h''])
          rw [h''] at this
          simp only [Prod.mk.injEq] at h' this
          simp only [← h'.1, this]
        · simp at h'
      · simp at h'
    · next h' => rw [h'] at h; simp at h

theorem place_given {cwd upload : Path} {k default f : Str} {d : Info} {fs : FS} (hg : Given d k f) :
    place cwd upload k default d fs =
      match copy (abspath cwd f) upload fs with
      | (fs, .error e) => ((fs, d), .error e)
      | (fs, .ok _) => ((fs, Dict.set d k (some (pathJoin "upload".toList [basename f]))), .ok ()) := by
  obtain ⟨h0, h⟩ := hg
  unfold place
  rw [h]
  cases f with
  | nil => exact absurd rfl h0
  | cons c f =>
    simp only [uploadedFile]
    cases hc : copy (abspath cwd (c :: f)) upload fs with
    | mk fs' r => cases r <;> rfl

theorem place_notGiven {cwd upload : Path} {k default : Str} {d : Info} {fs : FS} (h : NotGiven d k) :
    place cwd upload k default d fs = ((fs, Dict.set d k (some (pathJoin "files".toList [default]))), .ok ()) := by
  unfold place
  rcases h with h | h <;> rw [h] <;> rfl

theorem given_or (d : Info) (k : Str) : Dict.get? d k = none ∨ NotGiven d k ∨ ∃ f, Given d k f := by
  cases h : Dict.get? d k with
  | none => exact .inl rfl
  | some v =>
    right
    cases v with
    | none => exact .inl (.inl h)
    | some f =>
      cases f with
      | nil => exact .inl (.inr h)
      | cons c f => exact .inr ⟨c :: f, by simp, h⟩

/-- One `place`: what it does when it succeeds. -/
theorem place_ok {cwd upload : Path} {k default : Str} {d : Info} {fs : FS} (hu : fs upload = some .dir)
    (h : (place cwd upload k default d fs).2 = .ok ()) :
    (NotGiven d k ∧ (place cwd upload k default d fs).1 = (fs, Dict.set d k (some (pathJoin "files".toList [default])))) ∨
    (∃ f c, Given d k f ∧ fs (abspath cwd f) = some (.file c) ∧
      abspath cwd f ≠ upload ++ [(abspath cwd f).getLastD []] ∧
      fs (upload ++ [(abspath cwd f).getLastD []]) ≠ some .dir ∧
      (place cwd upload k default d fs).1 = (fs.put (upload ++ [(abspath cwd f).getLastD []]) (.file c),
        Dict.set d k (some (pathJoin "upload".toList [basename f])))) := by
  rcases given_or d k with h1 | h1 | ⟨f, h1⟩
  · simp [place, h1] at h
  · left
    exact ⟨h1, by rw [place_notGiven h1]⟩
  · right
    have hc := (copy_spec (src := abspath cwd f) hu).2.1
    rw [place_given h1] at h ⊢
    cases hr : copy (abspath cwd f) upload fs with
    | mk fs' r =>
      rw [hr] at h hc
      cases r with
      | error e => simp at h
      | ok u =>
        obtain ⟨c, g1, g2, g3, g4⟩ := hc rfl
        exact ⟨f, c, h1, g1, g2, g3, by rw [← g4]⟩

/-- the paths at which a report keeps the given files -/
def UploadPath (cwd upload : Path) (S : Str → Prop) (p : Path) : Prop :=
  ∃ f, S f ∧ p = upload ++ [(abspath cwd f).getLastD []]

/-- the state after some of the files are copied; `fs3` is the file system before, `L` are the copied files -/
structure Inv (cwd upload : Path) (S : Str → Prop) (fs3 fs : FS) (L : Str → Prop) : Prop where
  only : Only (fun _ => False) (UploadPath cwd upload S) fs3 fs
  up : fs upload = some .dir
  nodir : ∀ p, fs p = some .dir → fs3 p = some .dir
  copied : ∀ f, L f → fs (upload ++ [(abspath cwd f).getLastD []]) = fs3 (abspath cwd f)

theorem Inv.src {cwd upload : Path} {S L : Str → Prop} {fs3 fs : FS} (h : Inv cwd upload S fs3 fs L) {src : Path}
    (hs : src ≠ upload ++ [src.getLastD []]) : fs src = fs3 src := by
  by_contra e
  rcases h.only.only src e with h' | ⟨f, _, h'⟩
  · exact h'.2
  · apply hs
    rw [h']
    simp

theorem Inv.step {cwd upload : Path} {S L : Str → Prop} {fs3 fs : FS} (h : Inv cwd upload S fs3 fs L) {f : Str} {c : ℕ}
    (hS : S f) (hsrc : fs (abspath cwd f) = some (.file c)) (hne : abspath cwd f ≠ upload ++ [(abspath cwd f).getLastD []])
    (hd : fs (upload ++ [(abspath cwd f).getLastD []]) ≠ some .dir)
    (hsame : ∀ g, L g → (abspath cwd g).getLastD [] = (abspath cwd f).getLastD [] → fs3 (abspath cwd g) = fs3 (abspath cwd f)) :
    Inv cwd upload S fs3 (fs.put (upload ++ [(abspath cwd f).getLastD []]) (.file c)) (fun g => L g ∨ g = f) := by
  have h1 := put_only h.only.tree (p := upload ++ [(abspath cwd f).getLastD []]) (.file c) (by simpa using h.up) (by simp) hd
  have h2 : fs3 (abspath cwd f) = some (.file c) := by rw [← h.src hne]; exact hsrc
  refine ⟨h.only.trans (h1.mono (fun _ h => h) fun p e => ⟨f, hS, e⟩), h1.dirs _ h.up, fun p hp => ?_, fun g hg => ?_⟩
  · by_cases e : p = upload ++ [(abspath cwd f).getLastD []]
    · rw [e, put_self] at hp; simp at hp
    · rw [put_ne _ _ e] at hp; exact h.nodir p hp
  by_cases e : (abspath cwd g).getLastD [] = (abspath cwd f).getLastD []
  · rw [e, put_self]
    rcases hg with hg | hg
    · rw [hsame g hg e, h2]
    · rw [hg, h2]
  · rw [put_ne _ _ (by simpa using e)]
    rcases hg with hg | hg
    · exact h.copied g hg
    · exact absurd (by rw [hg]) e

theorem Inv.mono {cwd upload : Path} {S L L' : Str → Prop} {fs3 fs : FS} (h : Inv cwd upload S fs3 fs L)
    (hL : ∀ f, L' f → L f) : Inv cwd upload S fs3 fs L' := ⟨h.only, h.up, h.nodir, fun f hf => h.copied f (hL f hf)⟩

/-- what an entry becomes -/
def Entry (d d' : Info) (k default : Str) : Prop :=
  (NotGiven d k → Dict.get? d' k = some (some (pathJoin "files".toList [default]))) ∧
  ∀ f, Given d k f → Dict.get? d' k = some (some (pathJoin "upload".toList [basename f]))

theorem given_unique {d : Info} {k f g : Str} (h : Given d k f) (h' : Given d k g) : f = g := by
  have := h.2.symm.trans h'.2
  simpa using this

theorem not_given {d : Info} {k f : Str} (h : NotGiven d k) (h' : Given d k f) : False := by
  rcases h with h | h
  · have := h.symm.trans h'.2
    simp at this
  · have := h.symm.trans h'.2
    exact h'.1 (by simpa using this.symm)

theorem place_inv {cwd upload : Path} {S L : Str → Prop} {fs3 fs : FS} (h : Inv cwd upload S fs3 fs L) {d : Info}
    {k : Str} (default : Str) (hS : ∀ f, Given d k f → S f)
    (hsame : ∀ g f, L g → Given d k f → (abspath cwd g).getLastD [] = (abspath cwd f).getLastD [] →
      fs3 (abspath cwd g) = fs3 (abspath cwd f)) :
    Inv cwd upload S fs3 (place cwd upload k default d fs).1.1
        (fun g => L g ∨ (place cwd upload k default d fs).2 = .ok () ∧ Given d k g) ∧
      (∀ k', k' ≠ k → Dict.get? (place cwd upload k default d fs).1.2 k' = Dict.get? d k') ∧
      ((place cwd upload k default d fs).2 = .ok () →
        Dict.get? d k ≠ none ∧ Entry d (place cwd upload k default d fs).1.2 k default ∧
        ∀ f, Given d k f → ∃ c, fs3 (abspath cwd f) = some (.file c)) ∧
      (Dict.get? d k ≠ none → (∀ f, Given d k f → (∃ c, fs3 (abspath cwd f) = some (.file c)) ∧
          abspath cwd f ≠ upload ++ [(abspath cwd f).getLastD []] ∧
          fs3 (upload ++ [(abspath cwd f).getLastD []]) ≠ some .dir) →
        (place cwd upload k default d fs).2 = .ok ()) := by
  cases hr : (place cwd upload k default d fs).2 with
  | error e =>
    rw [place_err h.up hr]
    refine ⟨h.mono fun f hf => by rcases hf with hf | hf; exacts [hf, absurd hf.1 (by simp)], fun _ _ => rfl, by simp,
      fun h0 hg => ?_⟩
    rcases given_or d k with h1 | h1 | ⟨f, h1⟩
    · exact absurd h1 h0
    · rw [place_notGiven h1] at hr; simp at hr
    · obtain ⟨⟨c, g1⟩, g2, g3⟩ := hg f h1
      have := (copy_spec (src := abspath cwd f) h.up).2.2.1 c (by rw [h.src g2]; exact g1) g2 fun e => g3 (h.nodir _ e)
      rw [place_given h1] at hr
      cases hc : copy (abspath cwd f) upload fs with
      | mk fs' r =>
        rw [hc] at this hr
        simp only at this
        rw [this] at hr
        simp at hr
  | ok u =>
    rcases place_ok h.up hr with ⟨h1, h2⟩ | ⟨f, c, h1, g1, g2, g3, h2⟩
    · rw [h2]
      refine ⟨h.mono fun f hf => ?_, fun k' hk => Dict.get?_set_ne _ _ (Ne.symm hk), fun _ => ⟨?_, ⟨?_, ?_⟩, ?_⟩,
        fun _ _ => rfl⟩
      · rcases hf with hf | hf
        · exact hf
        · exact (not_given h1 hf.2).elim
      · rcases h1 with h1 | h1 <;> rw [h1] <;> simp
      · intro _; simp
      · intro f hf; exact (not_given h1 hf).elim
      · intro f hf; exact (not_given h1 hf).elim
    · rw [h2]
      refine ⟨(h.step (hS f h1) g1 g2 g3 fun g hg e => hsame g f hg h1 e).mono fun g hg => ?_,
        fun k' hk => Dict.get?_set_ne _ _ (Ne.symm hk), fun _ => ⟨?_, ⟨?_, ?_⟩, ?_⟩, fun _ _ => rfl⟩
      · exact hg.imp_right fun hg => given_unique hg.2 h1
      · rw [h1.2]; simp
      · intro h'; exact (not_given h' h1).elim
      · intro g hg
        rw [given_unique hg h1]; simp
      · intro g hg
        rw [given_unique hg h1]
        exact ⟨c, by rw [← h.src g2]; exact g1⟩

theorem given_congr {d d' : Info} {k : Str} (h : Dict.get? d' k = Dict.get? d k) :
    (∀ f, Given d' k f ↔ Given d k f) ∧ (NotGiven d' k ↔ NotGiven d k) := by
  simp [Given, NotGiven, h]

/-- The whole constructor. -/
theorem makeDirs_spec {pkg : List (Str × ℕ)} {cwd out : Path} {m b : Info} {fs : FS} (ht : TreeFS fs)
    (hup : ∀ c, fs (out ++ ["upload".toList]) ≠ some (.file c)) :
    (Only (Created pkg out) (UploadPath cwd (out ++ ["upload".toList]) (Uploads m b)) fs
        (makeDirs pkg cwd out ⟨fs, m, b⟩).1.fs ∧
      (∀ k, k ≠ "logo".toList → k ≠ "missingplot".toList →
        Dict.get? (makeDirs pkg cwd out ⟨fs, m, b⟩).1.marketing k = Dict.get? m k) ∧
      (∀ k, k ≠ "qe_plot".toList → Dict.get? (makeDirs pkg cwd out ⟨fs, m, b⟩).1.basic k = Dict.get? b k)) ∧
    ((makeDirs pkg cwd out ⟨fs, m, b⟩).2 = .ok () →
      (directories pkg out fs).2 = .ok () ∧
      Entry m (makeDirs pkg cwd out ⟨fs, m, b⟩).1.marketing "logo".toList "missinglogo.pdf".toList ∧
      Entry m (makeDirs pkg cwd out ⟨fs, m, b⟩).1.marketing "missingplot".toList "missingplot.pdf".toList ∧
      Entry b (makeDirs pkg cwd out ⟨fs, m, b⟩).1.basic "qe_plot".toList "missingplot.pdf".toList ∧
      Dict.get? m "logo".toList ≠ none ∧
      ((∀ f g, Uploads m b f → Uploads m b g → (abspath cwd f).getLastD [] = (abspath cwd g).getLastD [] →
          (directories pkg out fs).1 (abspath cwd f) = (directories pkg out fs).1 (abspath cwd g)) →
        Inv cwd (out ++ ["upload".toList]) (Uploads m b) (directories pkg out fs).1
          (makeDirs pkg cwd out ⟨fs, m, b⟩).1.fs (Uploads m b))) ∧
    ((directories pkg out fs).2 = .ok () → Dict.get? m "logo".toList ≠ none → Dict.get? m "missingplot".toList ≠ none →
      Dict.get? b "qe_plot".toList ≠ none →
      (∀ f, Uploads m b f → (∃ c, (directories pkg out fs).1 (abspath cwd f) = some (.file c)) ∧
        abspath cwd f ≠ out ++ ["upload".toList] ++ [(abspath cwd f).getLastD []] ∧
        (directories pkg out fs).1 (out ++ ["upload".toList] ++ [(abspath cwd f).getLastD []]) ≠ some .dir) →
      (makeDirs pkg cwd out ⟨fs, m, b⟩).2 = .ok ()) := by
  obtain ⟨d1, d2, -⟩ := directories_spec ht pkg out
  unfold makeDirs
  cases hd : directories pkg out fs with
  | mk fs3 r =>
    rw [hd] at d1 d2
    simp only at d1 d2
    cases r with
    | error e =>
      simp only
      exact ⟨⟨d1.mono (fun _ h => h) fun _ h => h.elim, by simp, by simp⟩, by simp, by simp⟩
    | ok u =>
      simp only
      have hu : fs3 (out ++ ["upload".toList]) = some .dir := by
        by_cases e : fs (out ++ ["upload".toList]) = none
        · exact (d2 rfl).2.2 e
        · cases h : fs (out ++ ["upload".toList]) with
          | none => exact absurd h e
          | some n =>
            cases n with
            | dir => exact d1.dirs _ h
            | file c => exact absurd h (hup c)
      have base : Inv cwd (out ++ ["upload".toList]) (Uploads m b) fs3 fs3 (fun _ => False) :=
        ⟨Only.rfl' d1.tree, hu, fun _ h => h, fun _ h => h.elim⟩
      have D1 : Only (Created pkg out) (UploadPath cwd (out ++ ["upload".toList]) (Uploads m b)) fs fs3 :=
        d1.mono (fun _ h => h) fun _ h => h.elim
      have fin : ∀ {L : Str → Prop} {fs' : FS}, Inv cwd (out ++ ["upload".toList]) (Uploads m b) fs3 fs' L →
          Only (Created pkg out) (UploadPath cwd (out ++ ["upload".toList]) (Uploads m b)) fs fs' := fun h =>
        D1.trans (h.only.mono (fun _ h => h.elim) fun _ h => h)
      obtain ⟨p1, p2, p3, p4⟩ := place_inv base (d := m) (k := "logo".toList) "missinglogo.pdf".toList
        (fun f hf => .inl hf) (fun _ _ h => h.elim)
      cases h1 : place cwd (out ++ ["upload".toList]) "logo".toList "missinglogo.pdf".toList m fs3 with
      | mk a1 r1 =>
        obtain ⟨fs4, m4⟩ := a1
        rw [h1] at p1 p2 p3 p4
        simp only at p1 p2 p3 p4
        cases r1 with
        | error e =>
          simp only
          exact ⟨⟨fin p1, fun k hk _ => p2 k hk, by simp⟩, by simp, fun _ h _ _ hg =>
            absurd (p4 h fun f hf => hg f (.inl hf)) (by simp)⟩
        | ok u =>
          simp only
          have c4 := given_congr (p2 "missingplot".toList (by decide))
          have q0 := place_inv (p1.mono (L' := fun _ => False) fun _ h => h.elim) (d := m4) (k := "missingplot".toList)
            "missingplot.pdf".toList (fun f hf => .inr (.inl ((c4.1 f).1 hf))) (fun _ _ h => h.elim)
          have q1 := fun hs => place_inv p1 (d := m4) (k := "missingplot".toList)
            "missingplot.pdf".toList (fun f hf => .inr (.inl ((c4.1 f).1 hf))) hs
          cases h2 : place cwd (out ++ ["upload".toList]) "missingplot".toList "missingplot.pdf".toList m4 fs4 with
          | mk a2 r2 =>
            obtain ⟨fs5, m5⟩ := a2
            rw [h2] at q0 q1
            simp only at q0 q1
            obtain ⟨q01, q02, q03, q04⟩ := q0
            cases r2 with
            | error e =>
              simp only
              exact ⟨⟨fin q01, fun k hk hk' => (q02 k hk').trans (p2 k hk), by simp⟩, by simp, fun _ _ h _ hg =>
                absurd (q04 (by rw [p2 _ (by decide)]; exact h) fun f hf => hg f (.inr (.inl ((c4.1 f).1 hf)))) (by simp)⟩
            | ok u =>
              simp only
              have r0 := place_inv (q01.mono (L' := fun _ => False) fun _ h => h.elim) (d := b) (k := "qe_plot".toList)
                "missingplot.pdf".toList (fun f hf => .inr (.inr hf)) (fun _ _ h => h.elim)
              have r1 := fun hs hs' => place_inv (q1 hs).1 (d := b) (k := "qe_plot".toList)
                "missingplot.pdf".toList (fun f hf => .inr (.inr hf)) hs'
              cases h3 : place cwd (out ++ ["upload".toList]) "qe_plot".toList "missingplot.pdf".toList b fs5 with
              | mk a3 r3 =>
                obtain ⟨fs6, b6⟩ := a3
                rw [h3] at r0 r1
                simp only at r0 r1
                obtain ⟨r01, r02, r03, r04⟩ := r0
                cases r3 with
                | error e =>
                  simp only
                  exact ⟨⟨fin r01, fun k hk hk' => (q02 k hk').trans (p2 k hk), r02⟩, by simp, fun _ _ _ h hg =>
                    absurd (r04 h fun f hf => hg f (.inr (.inr hf))) (by simp)⟩
                | ok u =>
                  simp only
                  refine ⟨⟨fin r01, fun k hk hk' => (q02 k hk').trans (p2 k hk), r02⟩, fun _ => ⟨trivial, ?_, ?_,
                    (r03 rfl).2.1, (p3 rfl).1, fun hs => ?_⟩, fun _ _ _ _ _ => trivial⟩
                  · have := (p3 rfl).2.1
                    unfold Entry at this ⊢
                    rw [q02 _ (by decide)]
                    exact this
                  · have := (q03 rfl).2.1
                    unfold Entry at this ⊢
                    simp only [c4.1, c4.2] at this
                    exact this
                  · refine (r1 ?_ ?_).1.mono fun f hf => ?_
                    · rintro g f (h | h) hf e
                      · exact h.elim
                      · exact hs g f (.inl h.2) (.inr (.inl ((c4.1 f).1 hf))) e
                    · rintro g f ((h | h) | h) hf e
                      · exact h.elim
                      · exact hs g f (.inl h.2) (.inr (.inr hf)) e
                      · exact hs g f (.inr (.inl ((c4.1 g).1 h.2))) (.inr (.inr hf)) e
                    · rcases hf with hf | hf | hf
                      · exact .inl (.inl (.inr ⟨trivial, hf⟩))
                      · exact .inl (.inr ⟨trivial, (c4.1 f).2 hf⟩)
                      · exact .inr ⟨rfl, hf⟩

end ReportDirs
end Emva
