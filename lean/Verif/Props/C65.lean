import Verif.Lemmas.DatasetGenerator

/-!
C65: how an image name of a descriptor is turned into a path.
-/
set_option autoImplicit false
namespace Emva
open Py Emva.Parser

theorem splitOnChar_ne_nil (sep : Char) (s : Str) : splitOnChar sep s ≠ [] := by
  cases s with
  | nil => simp [splitOnChar]
  | cons c cs =>
    unfold splitOnChar
    split
    · simp
    · split <;> simp

theorem splitOnChar_append (sep : Char) (a b : Str) :
    splitOnChar sep (a ++ sep :: b) = splitOnChar sep a ++ splitOnChar sep b := by
  induction a with
  | nil => simp [splitOnChar]
  | cons c cs ih =>
    rw [List.cons_append, splitOnChar, splitOnChar]
    split
    · rw [ih]; rfl
    · rw [ih]
      cases h : splitOnChar sep cs with
      | nil => exact absurd h (splitOnChar_ne_nil _ _)
      | cons w ws => simp

theorem joinSlash_splitOnChar (sep : Char) (s : Str) :
    joinSlash (splitOnChar sep s) = replaceChar sep '/' s := by
  induction s with
  | nil => rfl
  | cons c cs ih =>
    unfold splitOnChar
    have hne := splitOnChar_ne_nil sep cs
    cases hs : splitOnChar sep cs with
    | nil => exact absurd hs hne
    | cons w ws =>
      rw [hs] at ih
      by_cases hc : c = sep
      · simp only [hc, if_true, joinSlash, ih, replaceChar, List.map_cons, List.nil_append]
      · simp only [if_neg hc, replaceChar, List.map_cons]
        cases ws with
        | nil => simp only [joinSlash] at ih ⊢; rw [ih]; rfl
        | cons v vs => simp only [joinSlash, List.cons_append] at ih ⊢; rw [ih]; rfl

/-- a name component without special meaning -/
def Plain (c : Str) : Prop := c ≠ [] ∧ c ≠ ['.'] ∧ c ≠ ['.', '.']

theorem normComps_plain (init : Bool) (acc cs : List Str) (h : ∀ c ∈ cs, Plain c) :
    normComps init acc cs = acc ++ cs := by
  induction cs generalizing acc with
  | nil => simp [normComps]
  | cons c cs ih =>
    have hc := h c (by simp)
    rw [normComps, if_neg (by simp [hc.1, hc.2.1]), if_pos (.inl hc.2.2),
      ih _ fun x hx => h x (List.mem_cons_of_mem _ hx)]
    simp

theorem normComps_append (init : Bool) (acc xs ys : List Str) :
    normComps init acc (xs ++ ys) = normComps init (normComps init acc xs) ys := by
  induction xs generalizing acc with
  | nil => rfl
  | cons c cs ih =>
    rw [List.cons_append, normComps]
    conv_rhs => rw [normComps]
    split
    · exact ih _
    · split <;> exact ih _

theorem replaceChar_self (c : Char) (s : Str) : replaceChar c c s = s := by
  unfold replaceChar
  conv_rhs => rw [← List.map_id s]
  apply List.map_congr_left
  intro x _
  split <;> simp_all

/-- no piece of the name is empty, `.` or `..`, cutting at `/` -/
theorem normpath_id (s : Str) (h : ∀ c ∈ splitOnChar '/' s, Plain c) : normpath s = s := by
  have ne : s ≠ [] := by
    rintro rfl
    exact (h [] (by simp [splitOnChar])).1 rfl
  have sw : startsWith s ['/'] = false := by
    cases s with
    | nil => rfl
    | cons c cs =>
      by_cases hc : c = '/'
      · subst hc
        exact absurd rfl (h [] (by simp [splitOnChar])).1
      · simp only [startsWith, List.isPrefixOf_cons_cons, Bool.and_eq_false_iff,
          beq_eq_false_iff_ne]
        exact .inl fun e => hc e.symm
  unfold normpath
  rw [if_neg ne, normComps_plain _ _ _ h, List.nil_append, joinSlash_splitOnChar,
    replaceChar_self, sw]
  simp [ne]

theorem startsWith_slash {c : Char} {s : Str} : startsWith (c :: s) ['/'] = (c == '/') := by
  rw [startsWith, List.isPrefixOf_cons_cons]
  by_cases h : c = '/'
  · subst h; simp
  · have : ('/' == c) = false := by simpa using fun e : '/' = c => h e.symm
    rw [this]; simp [h]

theorem pathJoin_eq (dir : Str) (w : Str) (ws : List Str)
    (h : ∀ x ∈ w :: ws, x ≠ [] ∧ startsWith x ['/'] = false ∧ endsWithChar x '/' = false) :
    pathJoin dir (w :: ws) = join1 dir (joinSlash (w :: ws)) := by
  induction ws using List.reverseRecOn with
  | nil => rfl
  | append_singleton vs v ih =>
    have ih' := ih fun x hx => h x (by simp at hx ⊢; tauto)
    have hv := h v (by simp)
    have hl := h ((w :: vs).getLast (by simp)) (by
      have := List.getLast_mem (l := w :: vs) (by simp)
      simp only [List.mem_cons, List.mem_append] at this ⊢
      tauto)
    have hw := h w (by simp)
    have js : ∀ (a : Str) (l : List Str), joinSlash (a :: (l ++ [v])) = joinSlash (a :: l) ++ '/' :: v := by
      intro a l
      induction l generalizing a with
      | nil => rfl
      | cons b l ih => simp only [List.cons_append, joinSlash] at ih ⊢; rw [ih]; simp
    have last : ∀ (a : Str) (l : List Str), (∀ x ∈ a :: l, x ≠ [] ∧ endsWithChar x '/' = false) →
        joinSlash (a :: l) ≠ [] ∧ endsWithChar (joinSlash (a :: l)) '/' = false := by
      intro a l hh
      induction l generalizing a with
      | nil => exact hh a (by simp)
      | cons b l ih =>
        obtain ⟨h1, h2⟩ := ih b fun x hx => hh x (List.mem_cons_of_mem _ hx)
        simp only [joinSlash]
        refine ⟨by simp, ?_⟩
        unfold endsWithChar at h2 ⊢
        rw [List.getLast?_append, List.getLast?_cons]
        cases hg : (joinSlash (b :: l)).getLast? with
        | none => simp at hg; exact absurd hg h1
        | some z => rw [hg] at h2; simpa using h2
    have lj := last w vs fun x hx => by
      have := h x (by simp at hx ⊢; tauto)
      exact ⟨this.1, this.2.2⟩
    have step : pathJoin dir (w :: (vs ++ [v])) = join1 (pathJoin dir (w :: vs)) v := by
      simp [pathJoin]
    rw [step, ih', js]
    have hsw : ∀ t, startsWith (joinSlash (w :: vs) ++ t) ['/'] = false := by
      intro t
      obtain ⟨c, cs, rfl⟩ := List.exists_cons_of_ne_nil hw.1
      have : (c == '/') = false := by rw [← startsWith_slash (s := cs)]; exact hw.2.1
      cases vs with
      | nil => simp only [joinSlash, List.cons_append]; rw [startsWith_slash, this]
      | cons b l => simp only [joinSlash, List.cons_append]; rw [startsWith_slash, this]
    have hs0 := hsw []
    rw [List.append_nil] at hs0
    have e1 : join1 dir (joinSlash (w :: vs)) ≠ [] ∧
        endsWithChar (join1 dir (joinSlash (w :: vs))) '/' = false := by
      unfold join1
      rw [hs0]
      have gl : ∀ u : Str, (u ++ joinSlash (w :: vs)).getLast? = (joinSlash (w :: vs)).getLast? := by
        intro u
        rw [List.getLast?_append]
        cases hg : (joinSlash (w :: vs)).getLast? with
        | none => simp at hg; exact absurd hg lj.1
        | some z => rfl
      simp only [Bool.false_eq_true, if_false]
      split
      · refine ⟨by simp [lj.1], ?_⟩
        unfold endsWithChar at lj ⊢
        rw [gl]; exact lj.2
      · refine ⟨by simp, ?_⟩
        unfold endsWithChar at lj ⊢
        rw [show dir ++ '/' :: joinSlash (w :: vs) = (dir ++ ['/']) ++ joinSlash (w :: vs) by simp, gl]
        exact lj.2
    rw [join1, hv.2.1, if_neg (by simp), if_neg (by simp [e1.1, e1.2])]
    unfold join1
    rw [hs0, hsw]
    simp only [Bool.false_eq_true, if_false]
    split <;> simp

/-- A name: components with separators between them. -/
def mix (c0 : Str) (rest : List (Char × Str)) : Str := c0 ++ rest.flatMap fun p => p.1 :: p.2

/-- a component: plain and without separators -/
def Component (c : Str) : Prop := Plain c ∧ ∀ x ∈ c, x ≠ '/' ∧ x ≠ '\\'

theorem mix_cons (c0 : Str) (s : Char) (c : Str) (rest : List (Char × Str)) :
    mix c0 ((s, c) :: rest) = c0 ++ s :: mix c rest ∧
      mix c0 ((s, c) :: rest) = mix (c0 ++ s :: c) rest := by
  simp [mix]

theorem slash_groups (c0 : Str) (rest : List (Char × Str)) (h0 : Plain c0) (h1 : ∀ x ∈ c0, x ≠ '/')
    (hr : ∀ p ∈ rest, (p.1 = '/' ∨ p.1 = '\\') ∧ Component p.2) :
    ∀ g ∈ splitOnChar '/' (mix c0 rest), Plain g := by
  induction rest generalizing c0 with
  | nil =>
    intro g hg
    rw [show mix c0 [] = c0 by simp [mix], Gen.splitOnChar_none '/' h1] at hg
    simp at hg; subst hg; exact h0
  | cons p rest ih =>
    obtain ⟨s, c⟩ := p
    obtain ⟨hs, hc⟩ := hr (s, c) (by simp)
    have hr' : ∀ p ∈ rest, (p.1 = '/' ∨ p.1 = '\\') ∧ Component p.2 :=
      fun p hp => hr p (List.mem_cons_of_mem _ hp)
    simp only at hs hc
    rcases hs with rfl | rfl
    · intro g hg
      rw [(mix_cons _ _ _ _).1, Gen.splitOnChar_cons '/' h1] at hg
      rcases List.mem_cons.1 hg with rfl | hg
      · exact h0
      · exact ih c hc.1 (fun x hx => (hc.2 x hx).1) hr' g hg
    · intro g hg
      rw [(mix_cons _ _ _ _).2] at hg
      refine ih _ ⟨by simp, ?_, ?_⟩ ?_ hr' g hg
      · intro e
        have : '\\' ∈ ['.'] := by rw [← e]; simp
        simp at this
      · intro e
        have : '\\' ∈ ['.', '.'] := by rw [← e]; simp
        simp at this
      · intro x hx
        simp only [List.mem_append, List.mem_cons] at hx
        rcases hx with hx | rfl | hx
        · exact h1 x hx
        · decide
        · exact (hc.2 x hx).1

theorem backslash_groups (c0 : Str) (rest : List (Char × Str))
    (h0 : c0 ≠ [] ∧ startsWith c0 ['/'] = false ∧ endsWithChar c0 '/' = false)
    (h1 : ∀ x ∈ c0, x ≠ '\\')
    (hr : ∀ p ∈ rest, (p.1 = '/' ∨ p.1 = '\\') ∧ Component p.2) :
    ∀ g ∈ splitOnChar '\\' (mix c0 rest),
      g ≠ [] ∧ startsWith g ['/'] = false ∧ endsWithChar g '/' = false := by
  induction rest generalizing c0 with
  | nil =>
    intro g hg
    rw [show mix c0 [] = c0 by simp [mix], Gen.splitOnChar_none '\\' h1] at hg
    simp at hg; subst hg; exact h0
  | cons p rest ih =>
    obtain ⟨s, c⟩ := p
    obtain ⟨hs, hc⟩ := hr (s, c) (by simp)
    have hr' : ∀ p ∈ rest, (p.1 = '/' ∨ p.1 = '\\') ∧ Component p.2 :=
      fun p hp => hr p (List.mem_cons_of_mem _ hp)
    simp only at hs hc
    obtain ⟨x, xs, rfl⟩ := List.exists_cons_of_ne_nil h0.1
    have hlast : endsWithChar c '/' = false := by
      unfold endsWithChar
      cases hl : c.getLast? with
      | none => rfl
      | some z =>
        have := (hc.2 z (List.mem_of_getLast? hl)).1
        simpa using this
    rcases hs with rfl | rfl
    · intro g hg
      rw [(mix_cons _ _ _ _).2] at hg
      refine ih _ ⟨by simp, ?_, ?_⟩ ?_ hr' g hg
      · have := h0.2.1
        rw [startsWith_slash] at this
        rw [List.cons_append, startsWith_slash]
        exact this
      · obtain ⟨z, hz⟩ : ∃ z, c.getLast? = some z := by
          cases hl : c.getLast? with
          | none => simp at hl; exact absurd hl hc.1.1
          | some z => exact ⟨z, rfl⟩
        unfold endsWithChar at hlast ⊢
        rw [List.getLast?_append, List.getLast?_cons, hz]
        rw [hz] at hlast
        simpa using hlast
      · intro y hy
        simp only [List.mem_append, List.mem_cons] at hy
        rcases hy with (rfl | hy) | rfl | hy
        · exact h1 y (by simp)
        · exact h1 y (by simp [hy])
        · decide
        · exact (hc.2 y hy).2
    · intro g hg
      rw [(mix_cons _ _ _ _).1, Gen.splitOnChar_cons '\\' h1] at hg
      rcases List.mem_cons.1 hg with rfl | hg
      · exact h0
      · refine ih c ⟨hc.1.1, ?_, hlast⟩ (fun y hy => (hc.2 y hy).2) hr' g hg
        obtain ⟨y, ys, rfl⟩ := List.exists_cons_of_ne_nil hc.1.1
        rw [startsWith_slash]
        simpa using (hc.2 y (by simp)).1

/-- C65: a relative image name made of ordinary components, written with `/`, with `\` or with any
mixture, denotes the same file: the components below the image directory. -/
theorem C65_separators (dir c0 : Str) (rest : List (Char × Str)) (h0 : Component c0)
    (hr : ∀ p ∈ rest, (p.1 = '/' ∨ p.1 = '\\') ∧ Component p.2) :
    imagePath dir (mix c0 rest) = join1 dir (mix c0 (rest.map fun p => ('/', p.2))) := by
  have h0' : c0 ≠ [] ∧ startsWith c0 ['/'] = false ∧ endsWithChar c0 '/' = false := by
    refine ⟨h0.1.1, ?_, ?_⟩
    · obtain ⟨y, ys, rfl⟩ := List.exists_cons_of_ne_nil h0.1.1
      rw [startsWith_slash]
      simpa using (h0.2 y (by simp)).1
    · unfold endsWithChar
      cases hl : c0.getLast? with
      | none => rfl
      | some z => simpa using (h0.2 z (List.mem_of_getLast? hl)).1
  unfold imagePath
  rw [normpath_id _ (slash_groups c0 rest h0.1 (fun x hx => (h0.2 x hx).1) hr)]
  have hb := backslash_groups c0 rest h0' (fun x hx => (h0.2 x hx).2) hr
  cases hs : splitOnChar '\\' (mix c0 rest) with
  | nil => exact absurd hs (splitOnChar_ne_nil _ _)
  | cons w ws =>
    rw [hs] at hb
    rw [pathJoin_eq dir w ws hb, ← hs, joinSlash_splitOnChar]
    congr 1
    have id_of : ∀ c : Str, (∀ x ∈ c, x ≠ '\\') → replaceChar '\\' '/' c = c := by
      intro c hc
      unfold replaceChar
      conv_rhs => rw [← List.map_id c]
      exact List.map_congr_left fun x hx => by simp [hc x hx]
    have app : ∀ a b : Str, replaceChar '\\' '/' (a ++ b)
        = replaceChar '\\' '/' a ++ replaceChar '\\' '/' b := by
      intro a b; simp [replaceChar]
    unfold mix
    rw [app, id_of c0 fun x hx => (h0.2 x hx).2]
    congr 1
    clear hs hb
    induction rest with
    | nil => rfl
    | cons p rest ih =>
      obtain ⟨hs, hc⟩ := hr p (by simp)
      rw [List.flatMap_cons, app, ih fun q hq => hr q (List.mem_cons_of_mem _ hq), List.map_cons,
        List.flatMap_cons]
      congr 1
      have := id_of p.2 fun x hx => (hc.2 x hx).2
      rw [show replaceChar '\\' '/' (p.1 :: p.2)
        = (if p.1 = '\\' then '/' else p.1) :: replaceChar '\\' '/' p.2 from rfl, this]
      rcases hs with e | e <;> rw [e] <;> rfl

example : imagePath "data".toList "images\\run1/a.png".toList = "data/images/run1/a.png".toList := by
  decide +kernel

theorem normpath_congr {s t : Str} (hs : s ≠ []) (ht : t ≠ [])
    (h1 : startsWith s ['/'] = false) (h2 : startsWith t ['/'] = false)
    (h : normComps false [] (splitOnChar '/' s) = normComps false [] (splitOnChar '/' t)) :
    normpath s = normpath t := by
  unfold normpath
  rw [if_neg hs, if_neg ht, h1, h2, h]
  simp

/-- C65: redundant pieces of a relative name are ignored: doubled slashes, `.` components, and a
component followed by `..`. -/
theorem C65_redundant_pieces (dir a b x : Str) (ha : a ≠ []) (ha' : startsWith a ['/'] = false)
    (hx : Component x) :
    imagePath dir (a ++ "//".toList ++ b) = imagePath dir (a ++ '/' :: b) ∧
    imagePath dir (a ++ "/./".toList ++ b) = imagePath dir (a ++ '/' :: b) ∧
    imagePath dir (a ++ '/' :: (x ++ "/../".toList ++ b)) = imagePath dir (a ++ '/' :: b) := by
  obtain ⟨c, cs, rfl⟩ := List.exists_cons_of_ne_nil ha
  have hsw : ∀ t : Str, startsWith (c :: cs ++ t) ['/'] = false := by
    intro t
    rw [List.cons_append, startsWith_slash]
    rwa [startsWith_slash] at ha'
  have hne : ∀ t : Str, c :: cs ++ t ≠ [] := by intro t; simp
  generalize c :: cs = a at *
  have red : ∀ t : Str, (∀ acc, normComps false acc (splitOnChar '/' t)
      = normComps false acc (splitOnChar '/' b)) →
      imagePath dir (a ++ '/' :: t) = imagePath dir (a ++ '/' :: b) := by
    intro t ht
    unfold imagePath
    rw [normpath_congr (hne _) (hne _) (hsw _) (hsw _)]
    rw [splitOnChar_append, splitOnChar_append, normComps_append, normComps_append, ht]
  refine ⟨?_, ?_, ?_⟩
  · rw [show a ++ "//".toList ++ b = a ++ '/' :: ([] ++ '/' :: b) by simp]
    apply red
    intro acc
    rw [splitOnChar_append, normComps_append]
    simp [splitOnChar, normComps]
  · rw [show a ++ "/./".toList ++ b = a ++ '/' :: (['.'] ++ '/' :: b) by simp]
    apply red
    intro acc
    rw [splitOnChar_append, normComps_append]
    simp [splitOnChar, normComps]
  · rw [show x ++ "/../".toList ++ b = x ++ '/' :: (['.', '.'] ++ '/' :: b) by simp]
    apply red
    intro acc
    rw [splitOnChar_append, splitOnChar_append, normComps_append, normComps_append,
      Gen.splitOnChar_none '/' (fun y hy => (hx.2 y hy).1), normComps_plain false acc [x] (by simpa using hx.1)]
    have e : splitOnChar '/' ['.', '.'] = [['.', '.']] := by decide
    have hx2 : ¬ x = ['.', '.'] := hx.1.2.2
    rw [e]
    simp [normComps, hx2]

example : imagePath "d".toList "a/./b//c/../e.png".toList = "d/a/b/e.png".toList := by decide +kernel

/-- C65: an absolute name does not depend on the image directory. -/
theorem C65_absolute (dir dir' n : Str) : imagePath dir ('/' :: n) = imagePath dir' ('/' :: n) := by
  have hn : ∃ m, normpath ('/' :: n) = '/' :: m := by
    unfold normpath
    rw [if_neg (by simp)]
    have sw : startsWith ('/' :: n) ['/'] = true := by rw [startsWith_slash]; rfl
    rw [sw]
    simp only [if_true]
    split <;> exact ⟨_, by simp; rfl⟩
  obtain ⟨m, hm⟩ := hn
  unfold imagePath
  rw [hm]
  have hs : ∃ w ws, splitOnChar '\\' ('/' :: m) = ('/' :: w) :: ws := by
    cases h : splitOnChar '\\' m with
    | nil => exact absurd h (splitOnChar_ne_nil _ _)
    | cons v vs => exact ⟨v, vs, by simp [splitOnChar, h]⟩
  obtain ⟨w, ws, e⟩ := hs
  rw [e]
  have j : ∀ d : Str, join1 d ('/' :: w) = '/' :: w := by
    intro d
    unfold join1
    rw [startsWith_slash]
    rfl
  simp only [pathJoin, List.foldl_cons, j]

example : imagePath "d".toList "/data/a.png".toList = "/data/a.png".toList := by decide +kernel

end Emva
