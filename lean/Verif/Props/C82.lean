import Verif.Lemmas.ReportDirs

/-!
C82: the files of a report. The constructor copies the files that are given to it into the output directory, and the
names it keeps are those of the copies.
-/
set_option autoImplicit false
namespace Emva
open Py ReportDirs Spec

theorem proper_default : Proper "missinglogo.pdf".toList ∧ Proper "missingplot.pdf".toList ∧
    Proper "EMVA1288Logo.pdf".toList := by
  unfold Proper
  decide

theorem lastD_abspath {s : Str} (cwd : Path) (h : Proper (basename s)) : (abspath cwd s).getLastD [] = basename s := by
  obtain ⟨p, hp⟩ := abspath_basename cwd h
  rw [hp]
  simp

/-- The full claim is that a report refers to the files that were given, and to the files of the package for the others.
It holds if the output directory had no entry `files` and no file `upload`, if all the given names have a last component,
and if files with the same last component are the same file. -/
theorem C82_files_partial {logo missinglogo missingplot : ℕ} {cwd : Path} {outdir : Str} {marketing basic : Option Info}
    {fs : FS} {s : State} (ht : TreeFS fs)
    (hfiles : fs (abspath cwd outdir ++ ["files".toList]) = none)
    (hup : ∀ c, fs (abspath cwd outdir ++ ["upload".toList]) ≠ some (.file c))
    (hp : ∀ f, Uploads (orDefault marketing (infoMarketing [])) (orDefault basic (infoBasic [])) f → Proper (basename f))
    (hsame : ∀ f g, Uploads (orDefault marketing (infoMarketing [])) (orDefault basic (infoBasic [])) f →
      Uploads (orDefault marketing (infoMarketing [])) (orDefault basic (infoBasic [])) g →
      basename f = basename g → abspath cwd f = abspath cwd g)
    (hok : init (packaged logo missinglogo missingplot) cwd outdir marketing basic fs = (s, .ok ())) :
    (∀ d d' k default content, (d, d', k, default, content) ∈
        [(orDefault marketing (infoMarketing []), s.marketing, "logo".toList, "missinglogo.pdf".toList, missinglogo),
         (orDefault marketing (infoMarketing []), s.marketing, "missingplot".toList, "missingplot.pdf".toList, missingplot),
         (orDefault basic (infoBasic []), s.basic, "qe_plot".toList, "missingplot.pdf".toList, missingplot)] →
      (NotGiven d k → Dict.get? d' k = some (some ("files/".toList ++ default)) ∧
        Refers s.fs (abspath cwd outdir) ("files/".toList ++ default) content) ∧
      (∀ f c, Given d k f → fs (abspath cwd f) = some (.file c) →
        Dict.get? d' k = some (some ("upload/".toList ++ basename f)) ∧
        Refers s.fs (abspath cwd outdir) ("upload/".toList ++ basename f) c)) ∧
    Refers s.fs (abspath cwd outdir) "files/EMVA1288Logo.pdf".toList logo := by
  generalize hm : orDefault marketing (infoMarketing []) = m at *
  generalize hb : orDefault basic (infoBasic []) = b at *
  generalize hout : abspath cwd outdir = out at *
  have hok' : makeDirs (packaged logo missinglogo missingplot) cwd out ⟨fs, m, b⟩ = (s, .ok ()) := by
    rw [← hok, init, hm, hb, hout]
  obtain ⟨-, h2, -⟩ := makeDirs_spec (pkg := packaged logo missinglogo missingplot) (cwd := cwd) (m := m) (b := b) ht hup
  rw [hok'] at h2
  obtain ⟨e0, e1, e2, e3, -, e4⟩ := h2 rfl
  have inv := e4 fun f g hf hg e => by
    rw [lastD_abspath cwd (hp f hf), lastD_abspath cwd (hp g hg)] at e
    rw [hsame f g hf hg e]
  obtain ⟨d1, d2, -⟩ := directories_spec ht (packaged logo missinglogo missingplot) out
  have d3 := (d2 e0).2.1 hfiles (by simp [packaged])
  have hpkg : ∀ x ∈ packaged logo missinglogo missingplot, s.fs (out ++ ["files".toList, x.1]) = some (.file x.2) := by
    intro x hx
    rw [← d3 x hx]
    by_contra e
    rcases inv.only.only _ e with h | ⟨f, _, h⟩
    · exact h.2
    · rw [List.append_assoc] at h
      simp at h
  have join_files : ∀ c : Str, Proper c → pathJoin "files".toList [c] = "files/".toList ++ c := fun c h => by
    have : startsWith c ['/'] = false := by
      cases c with
      | nil => rfl
      | cons c s => exact ReportDirs.startsWith_slash fun e => h.2.2.2 (by simp [e])
    simp [pathJoin, join1, this, endsWithChar]
  have join_upload : ∀ c : Str, Proper c → pathJoin "upload".toList [c] = "upload/".toList ++ c := fun c h => by
    have : startsWith c ['/'] = false := by
      cases c with
      | nil => rfl
      | cons c s => exact ReportDirs.startsWith_slash fun e => h.2.2.2 (by simp [e])
    simp [pathJoin, join1, this, endsWithChar]
  have hfile : ∀ n c, Proper n → (n, c) ∈ packaged logo missinglogo missingplot →
      Refers s.fs out ("files/".toList ++ n) c := fun n c hn hx => by
    rw [Refers, ← join_files n hn, abspath_files out hn]
    exact hpkg (n, c) hx
  have hcopy : ∀ f c, Uploads m b f → fs (abspath cwd f) = some (.file c) →
      Refers s.fs out ("upload/".toList ++ basename f) c := fun f c hf hc => by
    have := inv.copied f hf
    rw [lastD_abspath cwd (hp f hf), List.append_assoc] at this
    rw [Refers, ← join_upload _ (hp f hf), abspath_upload out (hp f hf)]
    refine Eq.trans this ?_
    rw [← hc]
    by_contra e
    rcases d1.only _ e with h | h
    · rw [hc] at h; simp at h
    · exact h
  refine ⟨fun d d' k default content hx => ?_, hfile "EMVA1288Logo.pdf".toList logo proper_default.2.2 (by simp [packaged])⟩
  have key : ∀ d d' k default content, Entry d d' k default → Proper default →
      (default, content) ∈ packaged logo missinglogo missingplot → (∀ f, Given d k f → Uploads m b f) →
      (NotGiven d k → Dict.get? d' k = some (some ("files/".toList ++ default)) ∧
        Refers s.fs out ("files/".toList ++ default) content) ∧
      (∀ f c, Given d k f → fs (abspath cwd f) = some (.file c) →
        Dict.get? d' k = some (some ("upload/".toList ++ basename f)) ∧
        Refers s.fs out ("upload/".toList ++ basename f) c) := by
    intro d d' k default content he hd hx hU
    refine ⟨fun h => ⟨?_, hfile _ _ hd hx⟩, fun f c h hc => ⟨?_, hcopy f c (hU f h) hc⟩⟩
    · rw [he.1 h, join_files _ hd]
    · rw [he.2 f h, join_upload _ (hp f (hU f h))]
  simp only [List.mem_cons, List.not_mem_nil, or_false, Prod.mk.injEq] at hx
  rcases hx with ⟨rfl, rfl, rfl, rfl, rfl⟩ | ⟨rfl, rfl, rfl, rfl, rfl⟩ | ⟨rfl, rfl, rfl, rfl, rfl⟩
  · exact key _ _ _ _ _ e1 proper_default.1 (by simp [packaged]) fun f hf => .inl hf
  · exact key _ _ _ _ _ e2 proper_default.2.1 (by simp [packaged]) fun f hf => .inr (.inl hf)
  · exact key _ _ _ _ _ e3 proper_default.2.1 (by simp [packaged]) fun f hf => .inr (.inr hf)

/-- Whether the constructor succeeds or not: nothing is removed, directories stay directories, nothing that existed is
changed except a file `upload/<name>` of the name of a given file, and what is new is the output directory (with its
parents), its directories `files` (with the files of the package) and `upload`, and the copies. All other entries of the
dictionaries keep their values. -/
theorem C82_keeps {pkg : List (Str × ℕ)} {cwd : Path} {outdir : Str} {marketing basic : Option Info} {fs : FS} {s : State}
    {r : Except PyErr Unit} (ht : TreeFS fs)
    (hup : ∀ c, fs (abspath cwd outdir ++ ["upload".toList]) ≠ some (.file c))
    (h : init pkg cwd outdir marketing basic fs = (s, r)) :
    TreeFS s.fs ∧ (∀ p, fs p ≠ none → s.fs p ≠ none) ∧ (∀ p, fs p = some .dir → s.fs p = some .dir) ∧
    (∀ p, s.fs p ≠ fs p →
      (∃ f, Uploads (orDefault marketing (infoMarketing [])) (orDefault basic (infoBasic [])) f ∧
        p = abspath cwd outdir ++ ["upload".toList, (abspath cwd f).getLastD []]) ∨
      fs p = none ∧ (p <+: abspath cwd outdir ∨ p = abspath cwd outdir ++ ["files".toList] ∨
        (∃ x ∈ pkg, p = abspath cwd outdir ++ ["files".toList, x.1]) ∨ p = abspath cwd outdir ++ ["upload".toList])) ∧
    (∀ k, k ≠ "logo".toList → k ≠ "missingplot".toList →
      Dict.get? s.marketing k = Dict.get? (orDefault marketing (infoMarketing [])) k) ∧
    (∀ k, k ≠ "qe_plot".toList → Dict.get? s.basic k = Dict.get? (orDefault basic (infoBasic [])) k) := by
  have := (makeDirs_spec (pkg := pkg) (cwd := cwd) (m := orDefault marketing (infoMarketing []))
    (b := orDefault basic (infoBasic [])) ht hup).1
  rw [show makeDirs pkg cwd (abspath cwd outdir) ⟨fs, orDefault marketing (infoMarketing []), orDefault basic (infoBasic [])⟩
    = (s, r) from h] at this
  obtain ⟨h1, h2, h3⟩ := this
  refine ⟨h1.tree, h1.kept, h1.dirs, fun p hp => ?_, h2, h3⟩
  rcases h1.only p hp with h | ⟨f, hf, h⟩
  · exact .inr h
  · exact .inl ⟨f, hf, by rw [h, List.append_assoc]; rfl⟩

/-- The constructor succeeds if what exists of the path of the output directory are directories, the dictionaries have
the three entries, and every given name is an existing file outside of `upload` whose place in `upload` is not a
directory. -/
theorem C82_succeeds {pkg : List (Str × ℕ)} {cwd : Path} {outdir : Str} {marketing basic : Option Info} {fs : FS}
    (ht : TreeFS fs) (hup : ∀ c, fs (abspath cwd outdir ++ ["upload".toList]) ≠ some (.file c))
    (hout : ∀ q, q <+: abspath cwd outdir → fs q ≠ none → fs q = some .dir)
    (hk : Dict.get? (orDefault marketing (infoMarketing [])) "logo".toList ≠ none ∧
      Dict.get? (orDefault marketing (infoMarketing [])) "missingplot".toList ≠ none ∧
      Dict.get? (orDefault basic (infoBasic [])) "qe_plot".toList ≠ none)
    (hf : ∀ f, Uploads (orDefault marketing (infoMarketing [])) (orDefault basic (infoBasic [])) f →
      Proper (basename f) ∧ (∃ c, fs (abspath cwd f) = some (.file c)) ∧
      abspath cwd f ≠ abspath cwd outdir ++ ["upload".toList, basename f] ∧
      fs (abspath cwd outdir ++ ["upload".toList, basename f]) ≠ some .dir) :
    (init pkg cwd outdir marketing basic fs).2 = .ok () := by
  have hd := directories_spec ht pkg (abspath cwd outdir)
  refine (makeDirs_spec (pkg := pkg) (cwd := cwd) ht hup).2.2 (hd.2.2 hout) hk.1 hk.2.1 hk.2.2 fun f hu => ?_
  obtain ⟨f1, ⟨c, f2⟩, f3, f4⟩ := hf f hu
  rw [lastD_abspath cwd f1, List.append_assoc]
  refine ⟨⟨c, ?_⟩, f3, fun e => ?_⟩
  · rw [← f2]
    by_contra e
    rcases hd.1.only _ e with h | h
    · rw [f2] at h; simp at h
    · exact h
  · rcases hd.1.only (abspath cwd outdir ++ ["upload".toList, basename f]) (fun h => f4 (h ▸ e)) with ⟨_, h | h | ⟨x, _, h⟩ | h⟩ | h
    · have := h.length_le
      simp at this
    · simp at h
    · simp at h
    · simp at h
    · exact h

/-- The dictionaries of a report cannot be used for a second report: the names in them are relative to the output
directory of the first, so that the second constructor fails unless the working directory has entries `files` and
`upload` itself. -/
theorem C82_reuse_fails {pkg pkg' : List (Str × ℕ)} {cwd : Path} {outdir outdir' : Str} {marketing basic : Option Info}
    {fs fs' : FS} {s : State} (ht : TreeFS fs) (ht' : TreeFS fs')
    (hup : ∀ c, fs (abspath cwd outdir ++ ["upload".toList]) ≠ some (.file c))
    (hup' : ∀ c, fs' (abspath cwd outdir' ++ ["upload".toList]) ≠ some (.file c))
    (hok : init pkg cwd outdir marketing basic fs = (s, .ok ()))
    (hp : ∀ f, Given (orDefault marketing (infoMarketing [])) "logo".toList f → Proper (basename f))
    (hcwd : fs' (cwd ++ ["files".toList]) = none ∧ fs' (cwd ++ ["upload".toList]) = none)
    (hne : abspath cwd outdir' ≠ cwd) (hpre : ¬ cwd ++ ["files".toList] <+: abspath cwd outdir')
    (hpre' : ¬ cwd ++ ["upload".toList] <+: abspath cwd outdir') :
    (init pkg' cwd outdir' (some s.marketing) (some s.basic) fs').2 ≠ .ok () := by
  generalize hm : orDefault marketing (infoMarketing []) = m at *
  generalize hb : orDefault basic (infoBasic []) = b at *
  generalize hout : abspath cwd outdir = out at *
  have hok' : makeDirs pkg cwd out ⟨fs, m, b⟩ = (s, .ok ()) := by
    rw [← hok, init, hm, hb, hout]
  have h2 := (makeDirs_spec (pkg := pkg) (cwd := cwd) (m := m) (b := b) ht hup).2.1
  rw [hok'] at h2
  obtain ⟨-, e1, -, -, e0, -⟩ := h2 rfl
  -- the entry of the logo
  obtain ⟨v, hv, w, c, hvp, hw⟩ : ∃ v, Dict.get? s.marketing "logo".toList = some (some v) ∧
      ∃ w c, abspath cwd v = cwd ++ [w, c] ∧ (w = "files".toList ∨ w = "upload".toList) := by
    rcases given_or m "logo".toList with h | h | ⟨f, h⟩
    · exact absurd h e0
    · exact ⟨_, e1.1 h, _, _, abspath_files cwd proper_default.1, .inl rfl⟩
    · exact ⟨_, e1.2 f h, _, _, abspath_upload cwd (hp f h),
        .inr rfl⟩
  have hv0 : v ≠ [] := by
    rintro rfl
    have : abspath cwd [] = cwd := by simp [abspath, splitOnChar, normStep, startsWith, List.isPrefixOf]
    rw [this] at hvp
    have := congrArg List.length hvp
    simp at this
  have hg : Given s.marketing "logo".toList v := ⟨hv0, hv⟩
  have horD : orDefault (some s.marketing) (infoMarketing []) = s.marketing := by
    cases hs : s.marketing with
    | nil => rw [hs] at hv; simp [Dict.get?] at hv
    | cons x d => rfl
  intro hok2
  rw [init, horD] at hok2
  generalize orDefault (some s.basic) (infoBasic []) = b' at *
  generalize hout' : abspath cwd outdir' = out' at *
  -- the file does not exist
  have hnone : fs' (cwd ++ [w, c]) = none := by
    by_contra e
    have := ht'.parent (cwd ++ [w]) c (by rw [List.append_assoc]; exact e)
    rcases hw with rfl | rfl
    · rw [hcwd.1] at this; simp at this
    · rw [hcwd.2] at this; simp at this
  obtain ⟨d1, d2, -⟩ := directories_spec ht' pkg' out'
  have hne2 : (directories pkg' out' fs').1 (cwd ++ [w, c]) = none := by
    by_contra e
    rcases d1.only _ (by rw [hnone]; exact e) with ⟨_, h | h | ⟨x, _, h⟩ | h⟩ | h
    · rcases hw with rfl | rfl
      · exact hpre ((List.prefix_append (cwd ++ ["files".toList]) [c]).trans (by rw [List.append_assoc]; exact h))
      · exact hpre' ((List.prefix_append (cwd ++ ["upload".toList]) [c]).trans (by rw [List.append_assoc]; exact h))
    · have h' : (cwd ++ [w]) ++ [c] = out' ++ ["files".toList] := by rw [List.append_assoc]; exact h
      have := (List.append_inj' h' rfl).1
      rcases hw with rfl | rfl
      · exact hpre ⟨[], by rw [List.append_nil]; exact this⟩
      · exact hpre' ⟨[], by rw [List.append_nil]; exact this⟩
    · have := (List.append_inj' h rfl).1
      exact hne this.symm
    · have h' : (cwd ++ [w]) ++ [c] = out' ++ ["upload".toList] := by rw [List.append_assoc]; exact h
      have := (List.append_inj' h' rfl).1
      rcases hw with rfl | rfl
      · exact hpre ⟨[], by rw [List.append_nil]; exact this⟩
      · exact hpre' ⟨[], by rw [List.append_nil]; exact this⟩
    · exact h
  have hdok := ((makeDirs_spec (pkg := pkg') (cwd := cwd) (m := s.marketing) (b := b') ht' hup').2.1 hok2).1
  unfold makeDirs at hok2
  cases hd : directories pkg' out' fs' with
  | mk fs3 r =>
    have hu : fs3 (out' ++ ["upload".toList]) = some .dir := by
      rw [hd] at d1 d2 hdok
      simp only at d1 d2 hdok
      by_cases e : fs' (out' ++ ["upload".toList]) = none
      · exact (d2 hdok).2.2 e
      · cases h : fs' (out' ++ ["upload".toList]) with
        | none => exact absurd h e
        | some n =>
          cases n with
          | dir => exact d1.dirs _ h
          | file c => exact absurd h (hup' c)
    rw [hd] at hok2 hdok hne2
    simp only at hok2 hdok hne2
    subst hdok
    have : place cwd (out' ++ ["upload".toList]) "logo".toList "missinglogo.pdf".toList s.marketing fs3 =
        ((fs3, s.marketing), .error .fileNotFoundError) := by
      rw [place_given hg, (copy_spec (src := abspath cwd v) hu).2.2.2 (by rw [hvp]; exact hne2)]
    simp only [this] at hok2
    simp at hok2

end Emva
