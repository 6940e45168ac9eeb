import Verif.Lemmas.DatasetGenerator
import Verif.Props.C07_C12

/-!
C13-C14: what the dataset generator writes is what the parser reads back.
-/
set_option autoImplicit false
namespace Emva
open Py Spec Emva.Parser Gen

/-- points of a kind as a flat list -/
def flat (pts : Points) : List (ℚ × Option ℚ) := pts.flatMap fun t => t.2.map fun r => (t.1, r)

/-- Admissible generator settings: printable version and extension, non negative numbers, an output
directory that is empty, has no trailing slash, or has exactly one (and is not `/` itself). -/
structure GenOK (c : Cfg) (temporal spatial : Points) : Prop where
  version : c.version ≠ [] ∧ ∀ x ∈ c.version, isSpace x = false
  ext : ∀ x ∈ c.imageFormat, isSpace x = false ∧ x ≠ '/' ∧ x ≠ '\\'
  nonneg : ∀ q ∈ flat temporal ++ flat spatial, 0 ≤ q.1 ∧ ∀ p, q.2 = some p → 0 ≤ p
  outdir : c.outdir = [] ∨ endsWithChar c.outdir '/' = false ∨
    ∃ u, c.outdir = u ++ ['/'] ∧ u ≠ [] ∧ endsWithChar u '/' = false

/-- file of image number `i` -/
def fileOf (c : Cfg) (i : ℕ) : Str := savePath c (imageName c i)

theorem mem_plan {L : ℕ} {temporal spatial : Points} {p : ℚ × Option ℚ × ℕ} :
    p ∈ plan L temporal spatial ↔ ((p.1, p.2.1) ∈ flat temporal ∧ p.2.2 = 2) ∨
      ((p.1, p.2.1) ∈ flat spatial ∧ p.2.2 = L) := by
  obtain ⟨e, r, k⟩ := p
  simp only [plan, flat, List.mem_append, List.mem_flatMap, List.mem_map, Prod.mk.injEq]
  constructor
  · rintro (⟨t, ht, x, hx, rfl, rfl, rfl⟩ | ⟨t, ht, x, hx, rfl, rfl, rfl⟩)
    · exact .inl ⟨⟨t, ht, x, hx, rfl, rfl⟩, rfl⟩
    · exact .inr ⟨⟨t, ht, x, hx, rfl, rfl⟩, rfl⟩
  · rintro (⟨⟨t, ht, x, hx, rfl, rfl⟩, rfl⟩ | ⟨⟨t, ht, x, hx, rfl, rfl⟩, rfl⟩)
    · exact .inl ⟨t, ht, x, hx, rfl, rfl, rfl⟩
    · exact .inr ⟨t, ht, x, hx, rfl, rfl, rfl⟩

theorem GenOK.plan_nonneg {c : Cfg} {temporal spatial : Points} (h : GenOK c temporal spatial) :
    ∀ p ∈ plan c.L temporal spatial, Nonneg p.1 p.2.1 := by
  intro p hp
  rcases mem_plan.1 hp with ⟨hm, -⟩ | ⟨hm, -⟩
  · exact h.nonneg _ (List.mem_append_left _ hm)
  · exact h.nonneg _ (List.mem_append_right _ hm)

theorem GenOK.grammar {c : Cfg} {temporal spatial : Points} (h : GenOK c temporal spatial)
    (hL : 2 ≤ c.L) :
    Grammar decFloat decInt 0 (content (runTest c temporal spatial).text)
      (stmts c (plan c.L temporal spatial)) := by
  refine grammar_text c temporal spatial h.version h.ext h.plan_nonneg ?_
  intro p hp
  rcases mem_plan.1 hp with ⟨-, e⟩ | ⟨-, e⟩ <;> omega

theorem join1_eq {d x : Str} (hx : startsWith x ['/'] = false) :
    join1 d x = if d = [] ∨ endsWithChar d '/' = true then d ++ x else d ++ '/' :: x := by
  unfold join1
  rw [hx]
  rfl

theorem imagePath_eq {c : Cfg} {temporal spatial : Points} (h : GenOK c temporal spatial) (n : ℕ) :
    imagePath (imageDir (descriptorPath c) none) (nameTok c n) = fileOf c n := by
  rw [imagePath_nameTok h.ext]
  unfold fileOf savePath imageDir descriptorPath
  simp only [Option.getD_none]
  have hb : ∀ x ∈ "EMVA1288descriptor.txt".toList, x ≠ '/' := by decide
  rcases h.outdir with hd | hd | ⟨u, hu, hne, hl⟩
  · rw [dirname_join (.inl hd) hb]
  · rw [dirname_join (.inr hd) hb]
  · have this : ∀ x : Str, startsWith x ['/'] = false → join1 c.outdir x = join1 u x := by
      intro x hx
      have h1 : ¬ (u = [] ∨ endsWithChar u '/' = true) := by simp [hne, hl]
      have h2 : c.outdir = [] ∨ endsWithChar c.outdir '/' = true := by
        rw [hu]; simp [endsWithChar]
      rw [join1_eq hx, join1_eq hx, if_neg h1, if_pos h2, hu]
      simp
    rw [this _ (by decide), dirname_join (.inr hl) hb]
    simp only [pathJoin, List.foldl_cons]
    rw [this _ (by decide)]

/-- No two points of the same kind are stored under the same key (exposure to one decimal, photons
to three). -/
def KeysDistinct (pts : Points) : Prop := ((flat pts).map fun q => key q.1 q.2).Nodup

theorem consistent_stmts {c : Cfg} {temporal spatial : Points} (hL : 3 ≤ c.L)
    (ht : KeysDistinct temporal) (hs : KeysDistinct spatial) :
    Consistent (stmts c (plan c.L temporal spatial)) := by
  refine ⟨by rw [formats_stmts]; simp, ?_⟩
  rw [seriesOf_stmts, List.pairwise_map]
  have := (pairwise_numbered (R := fun s t => ¬ ((s.2.2 = 2 ↔ t.2.2 = 2) ∧
    key s.1 s.2.1 = key t.1 t.2.1)) 0 (plan c.L temporal spatial)).2 ?_
  · refine this.imp ?_
    intro s t h hc
    apply h
    obtain ⟨h1, h2, h3⟩ := hc
    exact ⟨by simpa using h1, Prod.ext h2 h3⟩
  · have cv : ∀ (pts : Points) (k : ℕ), KeysDistinct pts →
        (pts.flatMap (fun t => t.2.map fun r => (t.1, r, k))).Pairwise
          fun s t => ¬ ((s.2.2 = 2 ↔ t.2.2 = 2) ∧ key s.1 s.2.1 = key t.1 t.2.1) := by
      intro pts k hk
      have e : pts.flatMap (fun t => t.2.map fun r => (t.1, r, k))
          = (flat pts).map fun q => (q.1, q.2, k) := by
        simp [flat, List.map_flatMap, Function.comp_def]
      rw [e, List.pairwise_map]
      exact (List.pairwise_map.1 hk).imp fun h hc => h hc.2
    unfold plan
    rw [List.pairwise_append]
    refine ⟨cv _ _ ht, cv _ _ hs, ?_⟩
    intro a ha b hb hc
    simp only [List.mem_flatMap, List.mem_map] at ha hb
    obtain ⟨_, _, _, _, rfl⟩ := ha
    obtain ⟨_, _, _, _, rfl⟩ := hb
    have := hc.1
    simp at this
    omega

/-- C13: the generated descriptor parses, gives back version and format, and every point is found
under its (rounded) exposure and photon count, in its own kind, with exactly its own image files;
nothing else is found. -/
theorem C13_round_trip (c : Cfg) (temporal spatial : Points) (h : GenOK c temporal spatial)
    (hL : 3 ≤ c.L) (ht : KeysDistinct temporal) (hs : KeysDistinct spatial) :
    ∃ r, parse decFloat decInt 0 (descriptorPath c) none (runTest c temporal spatial).text = .ok r ∧
      r.version = some c.version ∧
      r.format = some ((c.bits : ℤ), (c.width : ℤ), (c.height : ℤ)) ∧
      ∀ k e p fs, r.lookup k e p = some fs ↔
        ∃ s ∈ numbered 0 (plan c.L temporal spatial), key s.1 s.2.1 = (e, p) ∧
          s.2.2.length = (match k with | .temporal => 2 | .spatial => c.L) ∧
          fs = s.2.2.map (fileOf c) := by
  obtain ⟨r, hr, hm⟩ := C07_complete decFloat decInt 0 (descriptorPath c) none _ _
    (h.grammar (by omega)) (consistent_stmts hL ht hs)
  refine ⟨r, hr, ?_, ?_, ?_⟩
  · rw [hm.version, versions_stmts]; rfl
  · rw [hm.format, formats_stmts]; rfl
  · intro k e p fs
    rw [hm.lookup, seriesOf_stmts]
    have hlen : ∀ s ∈ numbered 0 (plan c.L temporal spatial),
        (k = .temporal ↔ (s.2.2.map (nameTok c)).length = 2) ↔
          s.2.2.length = (match k with | .temporal => 2 | .spatial => c.L) := by
      intro s hs'
      have : s.2.2.length = 2 ∨ s.2.2.length = c.L := by
        rcases mem_plan.1 (mem_numbered hs') with ⟨-, e⟩ | ⟨-, e⟩
        · exact .inl e
        · exact .inr e
      cases k <;> simp ; all_goals omega
    have hfs : ∀ s : ℚ × Option ℚ × List ℕ, (s.2.2.map (nameTok c)).map
        (imagePath (imageDir (descriptorPath c) none)) = s.2.2.map (fileOf c) := by
      intro s
      rw [List.map_map]
      exact List.map_congr_left fun i _ => imagePath_eq h i
    constructor
    · rintro ⟨names, hmem, hk, rfl⟩
      obtain ⟨s, hs', he⟩ := List.mem_map.1 hmem
      simp only [Prod.mk.injEq] at he
      obtain ⟨h1, h2, rfl⟩ := he
      exact ⟨s, hs', Prod.ext h1 h2, (hlen s hs').1 hk, hfs s⟩
    · rintro ⟨s, hs', he, hk, rfl⟩
      refine ⟨s.2.2.map (nameTok c), List.mem_map.2 ⟨s, hs', ?_⟩, (hlen s hs').2 hk, (hfs s).symm⟩
      rw [he]

/-- C13: rounding moves the stored exposure by at most 0.05 ns and the stored photon count by at
most 0.0005; dark points are stored under photon count 0. -/
theorem C13_key_accuracy (e : ℚ) (r : Option ℚ) :
    |(key e r).1 - e| ≤ 1 / 20 ∧ (∀ p, r = some p → |(key e r).2 - p| ≤ 1 / 2000) ∧
      (r = none → (key e r).2 = 0) := by
  have rt : ∀ x : ℚ, |(rint x : ℚ) - x| ≤ 1 / 2 := by
    intro x
    have h1 := Int.floor_le x
    have h2 := Int.lt_floor_add_one x
    unfold rint
    simp only
    split_ifs with a b d <;> rw [abs_le] <;> push_cast <;> constructor <;> linarith
  refine ⟨?_, ?_, ?_⟩
  · have := rt (e * 10 ^ 1)
    simp only [key, roundTo]
    rw [abs_le] at this ⊢
    constructor <;> linarith
  · rintro p rfl
    have := rt (p * 10 ^ 3)
    simp only [key, roundTo]
    rw [abs_le] at this ⊢
    constructor <;> linarith
  · rintro rfl; rfl

/-- C13, other direction: if two points of a kind have the same rounded key, the data set that was
written cannot be loaded: the parser rejects it. -/
theorem C13_colliding_points_rejected (c : Cfg) (temporal spatial : Points)
    (h : GenOK c temporal spatial) (hL : 3 ≤ c.L)
    (hc : ¬ (KeysDistinct temporal ∧ KeysDistinct spatial)) :
    parse decFloat decInt 0 (descriptorPath c) none (runTest c temporal spatial).text
      = .error .syntaxError := by
  refine C08_duplicate_rejected decFloat decInt 0 _ _ _ _ (h.grammar (by omega)) ?_
  intro hp
  apply hc
  rw [seriesOf_stmts, List.pairwise_map] at hp
  have hp' := (pairwise_numbered (R := fun s t => ¬ ((s.2.2 = 2 ↔ t.2.2 = 2) ∧
    key s.1 s.2.1 = key t.1 t.2.1)) 0 (plan c.L temporal spatial)).1 (hp.imp (by
      intro s t h1 h2
      exact h1 ⟨by simpa using h2.1, congrArg (·.1) h2.2, congrArg (·.2) h2.2⟩))
  have cv : ∀ (pts : Points) (k : ℕ),
      (pts.flatMap (fun t => t.2.map fun r => (t.1, r, k))).Pairwise
        (fun s t => ¬ ((s.2.2 = 2 ↔ t.2.2 = 2) ∧ key s.1 s.2.1 = key t.1 t.2.1)) →
      KeysDistinct pts := by
    intro pts k hk
    have e : pts.flatMap (fun t => t.2.map fun r => (t.1, r, k))
        = (flat pts).map fun q => (q.1, q.2, k) := by
      simp [flat, List.map_flatMap, Function.comp_def]
    rw [e, List.pairwise_map] at hk
    exact List.pairwise_map.2 (hk.imp fun h1 h2 => h1 ⟨Iff.rfl, h2⟩)
  unfold plan at hp'
  rw [List.pairwise_append] at hp'
  exact ⟨cv _ _ hp'.1, cv _ _ hp'.2.1⟩

/-- C13, the boundary `L = 2`: the spatial data are lost (filed as temporal or rejected), because the
descriptor format tells the two kinds apart only by the number of images. -/
theorem C13_L2_loses_spatial (c : Cfg) (temporal spatial : Points) (h : GenOK c temporal spatial)
    (hL : c.L = 2) (r : Desc ℚ)
    (hr : parse decFloat decInt 0 (descriptorPath c) none (runTest c temporal spatial).text = .ok r)
    (e p : ℚ) : r.lookup .spatial e p = none := by
  obtain ⟨ss, hg, -, hm⟩ := C07_sound _ _ _ _ _ _ _ hr
  have := C07_unambiguous _ _ _ _ _ _ hg (h.grammar (by omega))
  subst this
  cases hx : r.lookup .spatial e p with
  | none => rfl
  | some fs =>
    obtain ⟨names, hmem, hk, -⟩ := (hm.lookup _ _ _ _).1 hx
    rw [seriesOf_stmts] at hmem
    obtain ⟨s, hs', he⟩ := List.mem_map.1 hmem
    have h2 : s.2.2.length = 2 := by
      rcases mem_plan.1 (mem_numbered hs') with ⟨-, e⟩ | ⟨-, e⟩
      · exact e
      · exact e.trans hL
    simp only [Prod.mk.injEq] at he
    obtain ⟨-, -, rfl⟩ := he
    simp [h2] at hk

/-- C13, below the boundary: with fewer than two spatial images the data set cannot be loaded. -/
theorem C13_L_small_rejected (c : Cfg) (temporal spatial : Points) (h : GenOK c temporal spatial)
    (hL : c.L < 2) (hne : flat spatial ≠ []) (r : Desc ℚ) :
    parse decFloat decInt 0 (descriptorPath c) none (runTest c temporal spatial).text ≠ .ok r := by
  obtain ⟨q, hq⟩ := List.exists_mem_of_ne_nil _ hne
  have hp : (q.1, q.2, c.L) ∈ plan c.L temporal spatial := mem_plan.2 (.inr ⟨hq, rfl⟩)
  obtain ⟨is, hmem, hlen⟩ := numbered_of_mem (n := 0) hp
  obtain ⟨a, b, hab⟩ := List.append_of_mem hmem
  have sp := (runTest_spec c temporal spatial h.version h.ext h.plan_nonneg).content
  refine C09_short_series_rejected decFloat decInt 0 (descriptorPath c) none _ (hdrTok q.1 q.2)
    (is.map (nameTok c)) (headLines c ++ a.flatMap (pointLines c)) (b.flatMap (pointLines c)) ?_ ?_
    ?_ ?_ r
  · rw [sp, hab]
    simp [pointLines, Function.comp_def]
  · cases q.2 <;> simp [hdrTok]
  · simpa [hlen] using hL
  · cases b with
    | nil => simp [nextIsImage]
    | cons s t =>
      obtain ⟨e', r', is'⟩ := s
      cases r' <;> simp [nextIsImage, pointLines, hdrTok]

/-- generator settings used in the examples -/
def sampleCfg : Cfg := ⟨"4.0".toList, "png".toList, 3, 8, 4, 3, "out".toList⟩

/-- two exposures with bright and dark pairs, one spatial point -/
def sampleTemporal : Points := [(1000, [some (25 / 2), none]), (10001 / 5, [some (1 / 3), none])]

/-- spatial points -/
def sampleSpatial : Points := [(1000, [some (25 / 2), none])]

/-- The hypotheses of `C13_round_trip` on a concrete data set, and the text written for it. -/
example : GenOK sampleCfg sampleTemporal sampleSpatial ∧ 3 ≤ sampleCfg.L ∧
    KeysDistinct sampleTemporal ∧ KeysDistinct sampleSpatial := by
  refine ⟨⟨by decide, by decide, ?_, .inr (.inl (by decide))⟩, by decide, ?_, ?_⟩
  · intro q hq
    simp [flat, sampleTemporal, sampleSpatial] at hq
    rcases hq with rfl | rfl | rfl | rfl | rfl | rfl <;> norm_num <;> simp
  · unfold KeysDistinct; decide +kernel
  · unfold KeysDistinct; decide +kernel

example : (runTest sampleCfg [(1000, [some (1 / 3)])] []).text =
    "v 4.0\nn 8 4 3\nb 1000.0 0.333\ni images\\image0.png\ni images\\image1.png\n".toList := by
  decide +kernel

/-- C14: the files are numbered 0, 1, 2, ... in acquisition order, two per temporal and `L` per
spatial point, no two share a path, and the image numbers of the points are consecutive in the same
order. -/
theorem C14_saved_files (c : Cfg) (temporal spatial : Points) (h : GenOK c temporal spatial) :
    (runTest c temporal spatial).saved
        = (List.range (2 * (flat temporal).length + c.L * (flat spatial).length)).map (fileOf c) ∧
      (runTest c temporal spatial).saved.Nodup ∧
      ((numbered 0 (plan c.L temporal spatial)).flatMap fun s => s.2.2.map (fileOf c))
        = (runTest c temporal spatial).saved := by
  have sp := (runTest_spec c temporal spatial h.version h.ext h.plan_nonneg).saved
  have tot : total (plan c.L temporal spatial)
      = 2 * (flat temporal).length + c.L * (flat spatial).length := by
    have cv : ∀ (pts : Points) (k : ℕ), total (pts.flatMap (fun t => t.2.map fun r => (t.1, r, k)))
        = k * (flat pts).length := by
      intro pts k
      have e : pts.flatMap (fun t => t.2.map fun r => (t.1, r, k))
          = (flat pts).map fun q => (q.1, q.2, k) := by
        simp [flat, List.map_flatMap, Function.comp_def]
      rw [e]
      simp [total, Function.comp_def, Nat.mul_comm]
    unfold plan
    simp only [total, List.map_append, List.sum_append]
    have h1 := cv temporal 2
    have h2 := cv spatial c.L
    simp only [total] at h1 h2
    rw [h1, h2]
  have inj : Function.Injective (fileOf c) := by
    intro i j hij
    unfold fileOf savePath at hij
    simp only [pathJoin, List.foldl_cons, List.foldl_nil] at hij
    have hsw : ∀ n, startsWith (imageName c n) ['/'] = false := fun n => rfl
    generalize join1 c.outdir "images".toList = d at hij
    have key : ∀ (d x y : Str), startsWith x ['/'] = false → startsWith y ['/'] = false →
        join1 d x = join1 d y → x = y := by
      intro d x y hx hy e
      rw [join1_eq hx, join1_eq hy] at e
      split at e
      · exact List.append_cancel_left e
      · exact (List.cons.inj (List.append_cancel_left e)).2
    have hn := key d _ _ (hsw i) (hsw j) hij
    unfold imageName at hn
    have := List.append_cancel_right (List.append_cancel_left hn)
    have e := congrArg digitsVal this
    rwa [digitsVal_fmtNat, digitsVal_fmtNat] at e
  have flatn : ∀ (ps : List (ℚ × Option ℚ × ℕ)) (n : ℕ),
      (numbered n ps).flatMap (fun s => s.2.2.map (fileOf c))
        = ((List.range (total ps)).map (n + ·)).map (fileOf c) := by
    intro ps
    induction ps with
    | nil => intro n; simp [numbered, total]
    | cons p ps ih =>
      intro n
      obtain ⟨e, r, L⟩ := p
      simp only [numbered, List.flatMap_cons, ih]
      rw [show total ((e, r, L) :: ps) = L + total ps by simp [total], List.range_add]
      simp [Function.comp_def, Nat.add_assoc]
  refine ⟨by rw [sp, tot]; rfl, ?_, ?_⟩
  · rw [sp]
    exact List.Nodup.map inj List.nodup_range
  · rw [flatn, sp]
    simp only [List.map_map]
    exact List.map_congr_left fun i _ => by simp [fileOf]

/-- C14: the files listed in the parsed descriptor are exactly the files saved, and every file is
listed under exactly one point. -/
theorem C14_parsed_files (c : Cfg) (temporal spatial : Points) (h : GenOK c temporal spatial)
    (hL : 3 ≤ c.L) (ht : KeysDistinct temporal) (hs : KeysDistinct spatial) (r : Desc ℚ)
    (hr : parse decFloat decInt 0 (descriptorPath c) none (runTest c temporal spatial).text = .ok r) :
    (∀ f, f ∈ (runTest c temporal spatial).saved ↔
      ∃ k e p fs, r.lookup k e p = some fs ∧ f ∈ fs) ∧
    ∀ f k e p fs k' e' p' fs', r.lookup k e p = some fs → r.lookup k' e' p' = some fs' → f ∈ fs →
      f ∈ fs' → k = k' ∧ e = e' ∧ p = p' := by
  obtain ⟨r', hr', -, -, hl⟩ := C13_round_trip c temporal spatial h hL ht hs
  obtain rfl : r = r' := Except.ok.inj (hr.symm.trans hr')
  obtain ⟨-, hnd, hfl⟩ := C14_saved_files c temporal spatial h
  constructor
  · intro f
    rw [← hfl, List.mem_flatMap]
    constructor
    · rintro ⟨s, hs', hf⟩
      have hk : ∃ k : Kind, s.2.2.length = (match k with | .temporal => 2 | .spatial => c.L) := by
        rcases mem_plan.1 (mem_numbered hs') with ⟨-, e⟩ | ⟨-, e⟩
        · exact ⟨.temporal, e⟩
        · exact ⟨.spatial, e⟩
      obtain ⟨k, hk⟩ := hk
      exact ⟨k, _, _, _, (hl k _ _ _).2 ⟨s, hs', rfl, hk, rfl⟩, hf⟩
    · rintro ⟨k, e, p, fs, hlk, hf⟩
      obtain ⟨s, hs', -, -, rfl⟩ := (hl _ _ _ _).1 hlk
      exact ⟨s, hs', hf⟩
  · intro f k e p fs k' e' p' fs' h1 h2 hf hf'
    obtain ⟨s, hs1, he, hk, rfl⟩ := (hl _ _ _ _).1 h1
    obtain ⟨s', hs1', he', hk', rfl⟩ := (hl _ _ _ _).1 h2
    have uniq : s = s' := by
      rw [← hfl] at hnd
      by_contra hne
      have : Std.Symm (Function.onFun List.Disjoint fun s : ℚ × Option ℚ × List ℕ =>
          s.2.2.map (fileOf c)) := ⟨fun a b hab => hab.symm⟩
      exact (List.nodup_flatMap.1 hnd).2.forall hs1 hs1' hne hf hf'
    subst uniq
    rw [he] at he'
    simp only [Prod.mk.injEq] at he'
    refine ⟨?_, he'⟩
    rw [hk] at hk'
    cases k <;> cases k' <;> simp at hk' ⊢ <;> omega

/-- C14 on the sample: file names and their order. -/
example : (runTest sampleCfg [(1000, [none])] [(7, [some 2])]).saved =
    ["out/images/image0.png".toList, "out/images/image1.png".toList, "out/images/image2.png".toList,
      "out/images/image3.png".toList, "out/images/image4.png".toList] := by
  decide +kernel

end Emva
