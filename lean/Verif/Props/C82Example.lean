import Verif.Props.C82

/-!
Concrete reports for C82: one that meets the hypotheses, and those for which the claim without them fails.
-/
set_option autoImplicit false
namespace Emva
namespace C82Example
open Py ReportDirs Spec

/-- a finite file system -/
def ofList (l : List (Path × Node)) : FS := fun p => l.lookup p

theorem tree_ofList (l : List (Path × Node)) (h0 : l.lookup [] = some .dir)
    (h : ∀ x ∈ l, x.1 = [] ∨ l.lookup x.1.dropLast = some .dir) : TreeFS (ofList l) := by
  refine ⟨h0, fun p c hp => ?_⟩
  have : ∃ n, (p ++ [c], n) ∈ l := by
    cases e : l.lookup (p ++ [c]) with
    | none => exact absurd e hp
    | some n =>
      obtain ⟨a, b, hab, -⟩ := List.lookup_eq_some_iff.1 e
      exact ⟨n, by rw [hab]; simp⟩
  obtain ⟨n, hn⟩ := this
  rcases h _ hn with h | h
  · simp at h
  · simpa [ofList] using h

def s (x : String) : Str := x.toList

/-- the home directory: two files with different contents and the same name in two directories -/
def home : List (Path × Node) :=
  [([], .dir), ([s "u"], .dir), ([s "u", s "logo.pdf"], .file 1), ([s "u", s "plots"], .dir),
   ([s "u", s "plots", s "qe.pdf"], .file 2), ([s "u", s "plots", s "logo.pdf"], .file 3)]

theorem tree_home : TreeFS (ofList home) := tree_ofList _ (by decide +kernel) (by decide +kernel)

def marketing : Info := infoMarketing [(s "logo", some (s "logo.pdf"))]
def basic : Info := infoBasic [(s "qe_plot", some (s "/u/plots/qe.pdf"))]

/-- the constructor of the example -/
def rep : State × Except PyErr Unit :=
  init (packaged 10 11 12) [s "u"] (s "out/report") (some marketing) (some basic) (ofList home)

theorem uploads_iff (f : Str) : Uploads (orDefault (some marketing) (infoMarketing [])) (orDefault (some basic) (infoBasic [])) f ↔
    f = s "logo.pdf" ∨ f = s "/u/plots/qe.pdf" := by
  have h1 : Dict.get? (orDefault (some marketing) (infoMarketing [])) "logo".toList = some (some (s "logo.pdf")) := by decide +kernel
  have h2 : Dict.get? (orDefault (some marketing) (infoMarketing [])) "missingplot".toList = some none := by decide +kernel
  have h3 : Dict.get? (orDefault (some basic) (infoBasic [])) "qe_plot".toList = some (some (s "/u/plots/qe.pdf")) := by decide +kernel
  unfold Uploads Given
  rw [h1, h2, h3]
  simp only [Option.some.injEq, reduceCtorEq, and_false, false_or]
  constructor
  · rintro (⟨_, h⟩ | ⟨_, h⟩)
    · exact .inl h.symm
    · exact .inr h.symm
  · rintro (rfl | rfl)
    · exact .inl ⟨by decide +kernel, rfl⟩
    · exact .inr ⟨by decide +kernel, rfl⟩

theorem good (f : Str) (h : Uploads (orDefault (some marketing) (infoMarketing [])) (orDefault (some basic) (infoBasic [])) f) :
    Proper (basename f) ∧ (∃ c, ofList home (abspath [s "u"] f) = some (.file c)) ∧
      abspath [s "u"] f ≠ abspath [s "u"] (s "out/report") ++ ["upload".toList, basename f] ∧
      ofList home (abspath [s "u"] (s "out/report") ++ ["upload".toList, basename f]) ≠ some .dir := by
  rcases (uploads_iff f).1 h with rfl | rfl
  · exact ⟨by unfold Proper; decide +kernel, ⟨1, by decide +kernel⟩, by decide +kernel, by decide +kernel⟩
  · exact ⟨by unfold Proper; decide +kernel, ⟨2, by decide +kernel⟩, by decide +kernel, by decide +kernel⟩

theorem rep_ok : rep.2 = .ok () := by
  refine C82_succeeds tree_home (fun c => ?_) ?_ ⟨by decide +kernel, by decide +kernel, by decide +kernel⟩ good
  · rw [show ofList home (abspath [s "u"] (s "out/report") ++ ["upload".toList]) = none by decide +kernel]; simp
  · have e : abspath [s "u"] (s "out/report") = [s "u", s "out", s "report"] := by decide +kernel
    rw [e]
    intro q hq
    rw [← List.mem_inits] at hq
    revert q
    decide +kernel

theorem rep_eq : init (packaged 10 11 12) [s "u"] (s "out/report") (some marketing) (some basic) (ofList home) =
    (rep.1, .ok ()) := Prod.ext (by rw [rep]) rep_ok

/-- The report has the logo and the plot of the example, the icon of the package for missing plots, and changes nothing in
the home directory. -/
example : Dict.get? rep.1.marketing (s "logo") = some (some (s "upload/logo.pdf")) ∧
    rep.1.fs [s "u", s "out", s "report", s "upload", s "logo.pdf"] = some (.file 1) ∧
    Dict.get? rep.1.basic (s "qe_plot") = some (some (s "upload/qe.pdf")) ∧
    rep.1.fs [s "u", s "out", s "report", s "upload", s "qe.pdf"] = some (.file 2) ∧
    Dict.get? rep.1.marketing (s "missingplot") = some (some (s "files/missingplot.pdf")) ∧
    rep.1.fs [s "u", s "out", s "report", s "files", s "missingplot.pdf"] = some (.file 12) ∧
    ∀ x ∈ home, rep.1.fs x.1 = some x.2 := by
  have hup : ∀ c, ofList home (abspath [s "u"] (s "out/report") ++ ["upload".toList]) ≠ some (.file c) := fun c => by
    rw [show ofList home (abspath [s "u"] (s "out/report") ++ ["upload".toList]) = none by decide +kernel]; simp
  have hr : init (packaged 10 11 12) [s "u"] (s "out/report") (some marketing) (some basic) (ofList home) =
      (rep.1, .ok ()) := rep_eq
  obtain ⟨h, -⟩ := C82_files_partial tree_home (by decide +kernel) hup (fun f hf => (good f hf).1) (fun f g hf hg e => by
    rcases (uploads_iff f).1 hf with rfl | rfl <;> rcases (uploads_iff g).1 hg with rfl | rfl
    · rfl
    · exact absurd e (by decide +kernel)
    · exact absurd e (by decide +kernel)
    · rfl) hr
  have h1 := (h _ _ _ _ _ (.head _)).2 (s "logo.pdf") 1 ⟨by decide +kernel, by decide +kernel⟩ (by decide +kernel)
  have h2 := (h _ _ _ _ _ (.tail _ (.head _))).1 (.inl (by decide +kernel))
  have h3 := (h _ _ _ _ _ (.tail _ (.tail _ (.head _)))).2 (s "/u/plots/qe.pdf") 2
    ⟨by decide +kernel, by decide +kernel⟩ (by decide +kernel)
  rw [Refers, show abspath (abspath [s "u"] (s "out/report")) ("upload/".toList ++ basename (s "logo.pdf")) =
    [s "u", s "out", s "report", s "upload", s "logo.pdf"] by decide +kernel,
    show "upload/".toList ++ basename (s "logo.pdf") = s "upload/logo.pdf" by decide +kernel] at h1
  rw [Refers, show abspath (abspath [s "u"] (s "out/report")) ("files/".toList ++ "missingplot.pdf".toList) =
    [s "u", s "out", s "report", s "files", s "missingplot.pdf"] by decide +kernel,
    show "files/".toList ++ "missingplot.pdf".toList = s "files/missingplot.pdf" by decide +kernel] at h2
  rw [Refers, show abspath (abspath [s "u"] (s "out/report")) ("upload/".toList ++ basename (s "/u/plots/qe.pdf")) =
    [s "u", s "out", s "report", s "upload", s "qe.pdf"] by decide +kernel,
    show "upload/".toList ++ basename (s "/u/plots/qe.pdf") = s "upload/qe.pdf" by decide +kernel] at h3
  refine ⟨h1.1, h1.2, h3.1, h3.2, h2.1, h2.2, fun x hx => ?_⟩
  have hk := (C82_keeps tree_home hup hr).2.2.2.1 x.1
  have hall : ∀ x ∈ home, ofList home x.1 = some x.2 := by decide +kernel
  have hx' := hall x hx
  rw [← hx']
  by_contra e
  rcases hk e with ⟨f, -, hp⟩ | hp
  · have : ∀ x ∈ home, ¬ abspath [s "u"] (s "out/report") <+: x.1 := by decide +kernel
    exact this x hx (hp ▸ List.prefix_append _ _)
  · rw [hx'] at hp; simp at hp

def bad1 : State × Except PyErr Unit :=
  init (packaged 10 11 12) [s "u"] (s "out") (some marketing) (some (infoBasic [(s "qe_plot", some (s "plots/logo.pdf"))])) (ofList home)

theorem bad1_res : bad1.2 = .ok () := by decide +kernel

def bad2 : State × Except PyErr Unit :=
  init (packaged 10 11 12) [s "u"] (s "out") none none
  (ofList [([], .dir), ([s "u"], .dir), ([s "u", s "out"], .dir), ([s "u", s "out", s "files"], .dir),
    ([s "u", s "out", s "files", s "missinglogo.pdf"], .file 7)])

theorem bad2_res : bad2.2 = .ok () := by decide +kernel

def bad3 : State × Except PyErr Unit :=
  init (packaged 10 11 12) [s "u"] (s "out") (some (infoMarketing [(s "logo", some (s "logo.pdf/"))])) none (ofList home)

theorem bad3_res : bad3.2 = .ok () := by decide +kernel

def home4 : FS := ofList (home ++ [([s "u", s "out"], .dir), ([s "u", s "out", s "upload"], .file 8)])

def bad4 : State × Except PyErr Unit :=
  init (packaged 10 11 12) [s "u"] (s "out") (some (infoMarketing [(s "logo", some (s "logo.pdf"))])) none home4

theorem bad4_tree : TreeFS home4 := tree_ofList _ (by decide +kernel) (by decide +kernel)

theorem bad4_files : home4 [s "u", s "out", s "upload"] = some (.file 8) ∧
    bad4.1.fs [s "u", s "out", s "upload"] = some (.file 1) := by decide +kernel

theorem bad4_res : bad4.2 = .ok () := by decide +kernel

def bad5 : State × Except PyErr Unit :=
  init (packaged 10 11 12) [s "u"] (s "out") (some [(s "watermark", none)]) none (ofList home)

theorem bad5_res : bad5.2 = .error .keyError := by decide +kernel

end C82Example

open Py ReportDirs Spec C82Example

/-- Two given files with the same name in different directories: the report shows the second instead of the first. -/
theorem C82_same_name : ∃ (fs : FS) (m b : Info) (st : State), TreeFS fs ∧
    init (packaged 10 11 12) [s "u"] (s "out") (some m) (some b) fs = (st, .ok ()) ∧
    fs [s "u", s "out"] = none ∧
    Given m "logo".toList (s "logo.pdf") ∧ fs (abspath [s "u"] (s "logo.pdf")) = some (.file 1) ∧
    Dict.get? st.marketing "logo".toList = some (some (s "upload/logo.pdf")) ∧
    Refers st.fs [s "u", s "out"] (s "upload/logo.pdf") 3 :=
  ⟨ofList home, marketing, infoBasic [(s "qe_plot", some (s "plots/logo.pdf"))], bad1.1, tree_home,
    Prod.ext (by rw [bad1]) bad1_res, by decide +kernel, ⟨by decide +kernel, by decide +kernel⟩, by decide +kernel, by decide +kernel, by unfold Refers; decide +kernel⟩

/-- A directory `files` in the output directory is used as it is: the icon of the report is what was there before. -/
theorem C82_stale_files : ∃ (fs : FS) (st : State), TreeFS fs ∧
    init (packaged 10 11 12) [s "u"] (s "out") none none fs = (st, .ok ()) ∧
    Dict.get? st.marketing "logo".toList = some (some (s "files/missinglogo.pdf")) ∧
    Refers st.fs [s "u", s "out"] (s "files/missinglogo.pdf") 7 ∧
    st.fs (abspath [s "u", s "out"] (s "files/missingplot.pdf")) = none :=
  ⟨ofList [([], .dir), ([s "u"], .dir), ([s "u", s "out"], .dir), ([s "u", s "out", s "files"], .dir),
    ([s "u", s "out", s "files", s "missinglogo.pdf"], .file 7)], bad2.1,
    tree_ofList _ (by decide +kernel) (by decide +kernel), Prod.ext (by rw [bad2]) bad2_res, by decide +kernel, by unfold Refers; decide +kernel, by decide +kernel⟩

/-- A name with a slash at the end is copied, but the name in the report is that of the directory. -/
theorem C82_trailing_slash : ∃ (fs : FS) (m : Info) (st : State), TreeFS fs ∧
    init (packaged 10 11 12) [s "u"] (s "out") (some m) none fs = (st, .ok ()) ∧
    Given m "logo".toList (s "logo.pdf/") ∧
    Dict.get? st.marketing "logo".toList = some (some (s "upload/")) ∧
    st.fs (abspath [s "u", s "out"] (s "upload/")) = some .dir :=
  ⟨ofList home, infoMarketing [(s "logo", some (s "logo.pdf/"))], bad3.1, tree_home,
    Prod.ext (by rw [bad3]) bad3_res, ⟨by decide +kernel, by decide +kernel⟩, by decide +kernel, by decide +kernel⟩

/-- A file `upload` in the output directory is replaced by the given file. -/
theorem C82_upload_file : ∃ (fs : FS) (m : Info) (st : State), TreeFS fs ∧
    init (packaged 10 11 12) [s "u"] (s "out") (some m) none fs = (st, .ok ()) ∧
    fs [s "u", s "out", s "upload"] = some (.file 8) ∧ st.fs [s "u", s "out", s "upload"] = some (.file 1) :=
  ⟨home4, infoMarketing [(s "logo", some (s "logo.pdf"))], bad4.1, bad4_tree, Prod.ext (by rw [bad4]) bad4_res, bad4_files⟩

/-- A dictionary without the entry of the logo is a `KeyError`, after the directories are created. -/
theorem C82_missing_entry : ∃ (fs : FS) (st : State), TreeFS fs ∧
    init (packaged 10 11 12) [s "u"] (s "out") (some [(s "watermark", none)]) none fs = (st, .error .keyError) ∧
    fs [s "u", s "out"] = none ∧ st.fs [s "u", s "out", s "upload"] = some .dir :=
  ⟨ofList home, bad5.1, tree_home, Prod.ext (by rw [bad5]) bad5_res, by decide +kernel, by decide +kernel⟩

/-- `C82_reuse_fails`: the dictionaries of the example in a second report. -/
example : (init (packaged 10 11 12) [s "u"] (s "second") (some rep.1.marketing) (some rep.1.basic) rep.1.fs).2 ≠ .ok () := by
  have hup : ∀ c, ofList home (abspath [s "u"] (s "out/report") ++ ["upload".toList]) ≠ some (.file c) := fun c => by
    rw [show ofList home (abspath [s "u"] (s "out/report") ++ ["upload".toList]) = none by decide +kernel]; simp
  have hr : init (packaged 10 11 12) [s "u"] (s "out/report") (some marketing) (some basic) (ofList home) =
      (rep.1, .ok ()) := rep_eq
  refine C82_reuse_fails tree_home (C82_keeps tree_home hup hr).1 hup (fun c => ?_) hr
    (fun f hf => (good f (.inl hf)).1) ⟨by decide +kernel, by decide +kernel⟩ (by decide +kernel) (by decide +kernel) (by decide +kernel)
  rw [show rep.1.fs (abspath [s "u"] (s "second") ++ ["upload".toList]) = none by decide +kernel]; simp

end Emva
