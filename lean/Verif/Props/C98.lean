import Verif.Model.AxisLimits
import Verif.Spec.Axis
import Verif.Props.C60
import Mathlib.Tactic.IntervalCases

/-!
C98: the limits of the axes of the profile plots.
-/
set_option autoImplicit false
set_option linter.unusedSectionVars false
namespace Emva
namespace Profiles
variable {F : Type} [Field F] [LinearOrder F] [IsStrictOrderedRing F]
open Spec Py

/-- the values of a drawn line (as opposed to the positions along the profile) -/
def Line.values : Line F → List F
  | .horizontal _ y => y
  | .vertical x _ => x

/-- the values of the line with the given label -/
def valuesOf (label : String) (axis : List (String × Line F)) : List F :=
  (axis.filter fun p => p.1 = label).flatMap fun p => p.2.values

theorem values_line (vertical : Bool) (p : List ℕ × List F) : (line vertical p).values = p.2 := by
  cases vertical <;> rfl

theorem valuesOf_lines (vertical : Bool) (p : Set4 F) :
    valuesOf "Mid" (lines vertical p) = p.mid.2 ∧ valuesOf "Min" (lines vertical p) = p.min.2 ∧
    valuesOf "Max" (lines vertical p) = p.max.2 ∧ valuesOf "Mean" (lines vertical p) = p.mean.2 := by
  simp [valuesOf, lines, values_line]

theorem sum_foldl_fin (l : List F) (a : F) :
    (l.map (Fl.fin : F → Fl F)).foldl (· + ·) (.fin a) = .fin (a + l.sum) := by
  induction l generalizing a with
  | nil => simp
  | cons x l ih => rw [List.map_cons, List.foldl_cons, Fl.fin_add, ih, List.sum_cons, add_assoc]

/-- a factor times the mean, not a number without values -/
theorem scaled_mean (c : F) (l : List F) : (.fin c * Fl.mean (l.map .fin) : Fl F) =
    if l = [] then .nan else .fin (c * (l.sum / l.length)) := by
  unfold Fl.mean Fl.sum
  rw [sum_foldl_fin, zero_add, List.length_map]
  split
  · next h => subst h; simp [Fl.mul_nan]
  · next h =>
    have : (l.length : F) ≠ 0 := by
      simpa using h
    rw [Fl.fin_div this, Fl.fin_mul]

theorem flMin_fin (x : F) (l : List (Fl F)) (h : ∀ y ∈ l, y = .nan ∨ ∃ v, y = .fin v) :
    ∃ m, flMin (.fin x :: l) = .ok (.fin m) ∧ (.fin m ∈ Fl.fin x :: l) ∧ ∀ v, Fl.fin v ∈ Fl.fin x :: l → m ≤ v := by
  simp only [flMin, Except.ok.injEq]
  induction l generalizing x with
  | nil => exact ⟨x, rfl, by simp, by intro v hv; simp at hv; exact hv ▸ le_rfl⟩
  | cons y l ih =>
    rw [List.foldl_cons]
    rcases h y (by simp) with rfl | ⟨v, rfl⟩
    · obtain ⟨m, h1, h2, h3⟩ := ih x fun y hy => h y (by simp [hy])
      refine ⟨m, by simpa [Fl.lt] using h1, ?_, ?_⟩
      · rcases List.mem_cons.1 h2 with h2 | h2 <;> simp [h2]
      · intro v hv
        apply h3
        simp only [List.mem_cons] at hv ⊢
        rcases hv with hv | hv | hv
        · exact .inl hv
        · cases hv
        · exact .inr hv
    · obtain ⟨m, h1, h2, h3⟩ := ih (if v < x then v else x) fun y hy => h y (by simp [hy])
      refine ⟨m, ?_, ?_, ?_⟩
      · rw [← h1]
        by_cases hv : v < x <;> simp [Fl.lt, hv]
      · rcases List.mem_cons.1 h2 with h2 | h2
        · split at h2 <;> simp [h2]
        · simp [h2]
      · have h0 := h3 _ (by simp : Fl.fin (if v < x then v else x) ∈ _)
        have hle : (if v < x then v else x) ≤ v ∧ (if v < x then v else x) ≤ x := by
          split
          · next hlt => exact ⟨le_rfl, hlt.le⟩
          · next hlt => exact ⟨not_lt.1 hlt, le_rfl⟩
        intro w hw
        simp only [List.mem_cons] at hw
        rcases hw with hw | hw | hw
        · cases hw; exact h0.trans hle.2
        · cases hw; exact h0.trans hle.1
        · exact h3 w (by simp [hw])

theorem flMax_fin (x : F) (l : List (Fl F)) (h : ∀ y ∈ l, y = .nan ∨ ∃ v, y = .fin v) :
    ∃ m, flMax (.fin x :: l) = .ok (.fin m) ∧ (.fin m ∈ Fl.fin x :: l) ∧ ∀ v, Fl.fin v ∈ Fl.fin x :: l → v ≤ m := by
  simp only [flMax, Except.ok.injEq]
  induction l generalizing x with
  | nil => exact ⟨x, rfl, by simp, by intro v hv; simp at hv; exact hv ▸ le_rfl⟩
  | cons y l ih =>
    rw [List.foldl_cons]
    rcases h y (by simp) with rfl | ⟨v, rfl⟩
    · obtain ⟨m, h1, h2, h3⟩ := ih x fun y hy => h y (by simp [hy])
      refine ⟨m, by simpa [Fl.lt] using h1, ?_, ?_⟩
      · rcases List.mem_cons.1 h2 with h2 | h2 <;> simp [h2]
      · intro v hv
        apply h3
        simp only [List.mem_cons] at hv ⊢
        rcases hv with hv | hv | hv
        · exact .inl hv
        · cases hv
        · exact .inr hv
    · obtain ⟨m, h1, h2, h3⟩ := ih (if x < v then v else x) fun y hy => h y (by simp [hy])
      refine ⟨m, ?_, ?_, ?_⟩
      · rw [← h1]
        by_cases hv : x < v <;> simp [Fl.lt, hv]
      · rcases List.mem_cons.1 h2 with h2 | h2
        · split at h2 <;> simp [h2]
        · simp [h2]
      · have h0 := h3 _ (by simp : Fl.fin (if x < v then v else x) ∈ _)
        have hle : v ≤ (if x < v then v else x) ∧ x ≤ (if x < v then v else x) := by
          split
          · next hlt => exact ⟨le_rfl, hlt.le⟩
          · next hlt => exact ⟨not_lt.1 hlt, le_rfl⟩
        intro w hw
        simp only [List.mem_cons] at hw
        rcases hw with hw | hw | hw
        · cases hw; exact hle.2.trans h0
        · cases hw; exact hle.1.trans h0
        · exact h3 w (by simp [hw])

theorem flMin_nan (l : List (Fl F)) : flMin (.nan :: l) = .ok .nan := by
  simp only [flMin, Except.ok.injEq]
  induction l with
  | nil => rfl
  | cons y l ih => rw [List.foldl_cons]; cases y <;> simpa [Fl.lt] using ih

theorem flMax_nan (l : List (Fl F)) : flMax (.nan :: l) = .ok .nan := by
  simp only [flMax, Except.ok.injEq]
  induction l with
  | nil => rfl
  | cons y l ih => rw [List.foldl_cons]; cases y <;> simpa [Fl.lt] using ih

/-- what is appended to a list of limits for a profile with the values `l` -/
def limit (c : F) (l : List F) : Fl F := .fin c * Fl.mean (l.map .fin)

theorem averages_iff {m : F} {l : List F} : Averages m l ↔ l ≠ [] ∧ m = l.sum / l.length := by
  constructor
  · rintro ⟨h, e⟩
    have : (l.length : F) ≠ 0 := by simpa using h
    exact ⟨h, by rw [← e]; field_simp⟩
  · rintro ⟨h, rfl⟩
    have : (l.length : F) ≠ 0 := by simpa using h
    exact ⟨h, by field_simp⟩

theorem limit_eq_fin {c : F} {l : List F} {v : F} : limit c l = .fin v ↔ ∃ m, Averages m l ∧ v = c * m := by
  unfold limit
  rw [scaled_mean]
  split
  · next h => constructor
              · intro h; cases h
              · rintro ⟨m, hm, -⟩; exact absurd h hm.1
  · next h =>
    constructor
    · intro e; cases e; exact ⟨_, averages_iff.2 ⟨h, rfl⟩, rfl⟩
    · rintro ⟨m, hm, rfl⟩; rw [(averages_iff.1 hm).2]

theorem limit_cases (c : F) (l : List F) : limit c l = .nan ∨ ∃ v, limit c l = .fin v := by
  unfold limit
  rw [scaled_mean]
  split
  · exact .inl rfl
  · exact .inr ⟨_, rfl⟩

/-- the limits of one axis -/
theorem axis_frames (l0 h0 : List F) (los his : List (List F)) (e1 : l0 ≠ []) (e2 : h0 ≠ []) :
    ∃ ax, (do let a ← flMin ((l0 :: los).map (limit (9 / 10)))
              let b ← flMax ((h0 :: his).map (limit (11 / 10)))
              setAxis a b) = .ok ax ∧ Frames (l0 :: los) (h0 :: his) ax := by
  obtain ⟨x, hx⟩ : ∃ x, limit (9 / 10) l0 = .fin x := ⟨_, limit_eq_fin.2 ⟨_, averages_iff.2 ⟨e1, rfl⟩, rfl⟩⟩
  obtain ⟨y, hy⟩ : ∃ x, limit (11 / 10) h0 = .fin x := ⟨_, limit_eq_fin.2 ⟨_, averages_iff.2 ⟨e2, rfl⟩, rfl⟩⟩
  obtain ⟨m, m1, m2, m3⟩ := flMin_fin x (los.map (limit (9 / 10))) fun y hy => by
    obtain ⟨l, -, rfl⟩ := List.mem_map.1 hy; exact limit_cases _ _
  obtain ⟨n, n1, n2, n3⟩ := flMax_fin y (his.map (limit (11 / 10))) fun y hy => by
    obtain ⟨l, -, rfl⟩ := List.mem_map.1 hy; exact limit_cases _ _
  rw [← hx, ← List.map_cons] at m1 m2 m3
  rw [← hy, ← List.map_cons] at n1 n2 n3
  refine ⟨(m, n), by rw [m1, n1]; rfl, ?_, ?_, ?_, ?_⟩
  · obtain ⟨l, hl, e⟩ := List.mem_map.1 m2
    obtain ⟨μ, hμ, e⟩ := limit_eq_fin.1 e
    exact ⟨l, hl, μ, hμ, e⟩
  · exact fun l hl μ hμ => m3 _ (List.mem_map.2 ⟨l, hl, limit_eq_fin.2 ⟨μ, hμ, rfl⟩⟩)
  · obtain ⟨l, hl, e⟩ := List.mem_map.1 n2
    obtain ⟨μ, hμ, e⟩ := limit_eq_fin.1 e
    exact ⟨l, hl, μ, hμ, e⟩
  · exact fun l hl μ hμ => n3 _ (List.mem_map.2 ⟨l, hl, limit_eq_fin.2 ⟨μ, hμ, rfl⟩⟩)

theorem profile_lengths (vertical : Bool) (a : FImg F) (p : Set4 F) (h : imageProfiles vertical a = .ok p) :
    p.min.2.length = p.mean.2.length ∧ p.max.2.length = p.mean.2.length := by
  obtain ⟨s, hs⟩ : ∃ s, s = sectionOf vertical a := ⟨_, rfl⟩
  obtain ⟨h1, h2, h3⟩ := C60_profiles vertical a s hs
  have hm : 0 < s.m := Nat.pos_of_ne_zero fun h0 => by rw [h1 h0] at h; simp at h
  have hn : a.mask ≠ .nomask := fun h0 => by rw [h2 hm h0] at h; simp at h
  obtain ⟨k, hk⟩ : ∃ k : ℕ, (((∃ m, a.mask = .mask m) ∧ ∀ j < s.n, ¬ s.present (s.m / 2) j) → k = s.m / 2 + 1) ∧
      (¬ ((∃ m, a.mask = .mask m) ∧ ∀ j < s.n, ¬ s.present (s.m / 2) j) → k = s.m / 2) := by
    by_cases hc : ((∃ m, a.mask = .mask m) ∧ ∀ j < s.n, ¬ s.present (s.m / 2) j)
    · exact ⟨_, fun _ => rfl, fun h => absurd hc h⟩
    · exact ⟨_, fun h => absurd h hc, fun _ => rfl⟩
  obtain ⟨h4, h5⟩ := h3 hm hn k hk.1 hk.2
  have hlt : k < s.m := by
    by_contra hc
    rw [h4 (not_lt.1 hc)] at h
    simp at h
  obtain ⟨p', e, ⟨-, -, al, -⟩, ⟨-, -, bl, -⟩, ⟨-, -, cl, -⟩, -⟩ := h5 hlt
  obtain rfl : p' = p := by rw [h] at e; exact (Except.ok.inj e).symm
  obtain ⟨o1, o2, -⟩ := C60_order vertical a p' h
  rw [← al, ← bl, ← cl, o1, o2]; exact ⟨rfl, rfl⟩

theorem rearrange_eq (lim : Limits F × Limits F) : rearrange lim = (do
    let bright ← (do let a ← flMin lim.1.min
                     let b ← flMax lim.1.max
                     setAxis a b)
    let dark ← (do let a ← flMin lim.2.min
                   let b ← flMax lim.2.max
                   setAxis a b)
    pure (bright, dark)) := by
  unfold rearrange
  simp only [bind_assoc]

/-- the profiles of a test -/
def profilesOf (vertical : Bool) (t : Test) : Except PyErr (Set4 F × Set4 F) := do
  let b ← imageProfiles vertical (brightImg t.sum t.dark t.L : FImg F)
  let d ← imageProfiles vertical (darkImg t.dark t.L : FImg F)
  pure (b, d)

theorem plot_eq (vertical : Bool) (t : Test) : (plot vertical t.sum t.dark t.L : Except PyErr _) =
    (profilesOf vertical t : Except PyErr (Set4 F × Set4 F)).map fun p => (lines vertical p.1, lines vertical p.2) := by
  unfold plot profilesOf
  cases imageProfiles vertical (brightImg t.sum t.dark t.L : FImg F) with
  | error e => rfl
  | ok b => cases imageProfiles vertical (darkImg t.dark t.L : FImg F) <;> rfl

theorem plotTest_eq (vertical : Bool) (t : Test) (lim : Limits F × Limits F) : plotTest vertical t lim =
    (profilesOf vertical t : Except PyErr (Set4 F × Set4 F)).map fun p => ((lines vertical p.1, lines vertical p.2),
      (⟨lim.1.min ++ [limit (9 / 10) p.1.mean.2], lim.1.max ++ [limit (11 / 10) p.1.mean.2]⟩,
       ⟨lim.2.min ++ [limit (9 / 10) p.2.min.2], lim.2.max ++ [limit (11 / 10) p.2.max.2]⟩)) := by
  unfold plotTest getProfiles profilesOf
  cases imageProfiles vertical (brightImg t.sum t.dark t.L : FImg F) with
  | error e => rfl
  | ok b => cases imageProfiles vertical (darkImg t.dark t.L : FImg F) <;> rfl

theorem plotTests_eq (vertical : Bool) (ts : List Test) (lim : Limits F × Limits F) : plotTests vertical ts lim =
    (ts.mapM (profilesOf vertical) : Except PyErr (List (Set4 F × Set4 F))).map fun ps =>
      (ps.map fun p => (lines vertical p.1, lines vertical p.2),
      (⟨lim.1.min ++ ps.map fun p => limit (9 / 10) p.1.mean.2, lim.1.max ++ ps.map fun p => limit (11 / 10) p.1.mean.2⟩,
       ⟨lim.2.min ++ ps.map fun p => limit (9 / 10) p.2.min.2,
        lim.2.max ++ ps.map fun p => limit (11 / 10) p.2.max.2⟩)) := by
  induction ts generalizing lim with
  | nil => simp [plotTests, Except.map, pure, Except.pure]
  | cons t ts ih =>
    unfold plotTests
    rw [plotTest_eq, List.mapM_cons]
    cases (profilesOf vertical t : Except PyErr (Set4 F × Set4 F)) with
    | error e => rfl
    | ok p =>
      simp only [Except.map, bind, Except.bind]
      rw [ih]
      cases (ts.mapM (profilesOf vertical) : Except PyErr (List (Set4 F × Set4 F))) with
      | error e => rfl
      | ok ps => simp [Except.map, pure, Except.pure]

theorem mapM_plot (vertical : Bool) (ts : List Test) :
    (ts.mapM fun t => (plot vertical t.sum t.dark t.L : Except PyErr (List (String × Line F) × List (String × Line F)))) =
    (ts.mapM (profilesOf vertical) : Except PyErr (List (Set4 F × Set4 F))).map fun ps =>
      ps.map fun p => (lines vertical p.1, lines vertical p.2) := by
  induction ts with
  | nil => rfl
  | cons t ts ih =>
    rw [List.mapM_cons, List.mapM_cons, plot_eq, ih]
    cases (profilesOf vertical t : Except PyErr (Set4 F × Set4 F)) with
    | error e => rfl
    | ok p => cases (ts.mapM (profilesOf vertical) : Except PyErr (List (Set4 F × Set4 F))) <;> rfl

end Profiles

variable {F : Type} [Field F] [LinearOrder F] [IsStrictOrderedRing F]
open Profiles Spec

/-- C98: the limits.  The figure draws for each test what a plot of the test alone draws, and fails with the
error of the first test that cannot be drawn.  If all are drawn, then without tests, or if the first of them has
no value to average, setting the limits fails; otherwise the bright axis goes from 90 % of the least to 110 % of
the greatest of the means of the drawn mean profiles, the dark axis from 90 % of the least of the means of the
drawn minimum profiles to 110 % of the greatest of the means of the drawn maximum profiles. -/
theorem C98_limits (vertical : Bool) (ts : List Test) :
    (∀ e, (ts.mapM fun t => (plot vertical t.sum t.dark t.L : Except PyErr (List (String × Line F) × List (String × Line F)))) =
      .error e → (figure vertical ts : Except PyErr (_ × ((F × F) × (F × F)))) = .error e) ∧
    ∀ ls, (ts.mapM fun t => (plot vertical t.sum t.dark t.L : Except PyErr (List (String × Line F) × List (String × Line F)))) =
      .ok ls →
      (((ls = [] ∨ ∃ l, ls[0]? = some l ∧ (valuesOf "Mean" l.1 = [] ∨ valuesOf "Mean" l.2 = [])) →
        (figure vertical ts : Except PyErr (_ × ((F × F) × (F × F)))) = .error .valueError) ∧
      (∀ l, ls[0]? = some l → valuesOf "Mean" l.1 ≠ [] → valuesOf "Mean" l.2 ≠ [] → ∃ bright dark : F × F,
        figure vertical ts = .ok (ls, bright, dark) ∧
        Frames (ls.map fun l => valuesOf "Mean" l.1) (ls.map fun l => valuesOf "Mean" l.1) bright ∧
        Frames (ls.map fun l => valuesOf "Min" l.2) (ls.map fun l => valuesOf "Max" l.2) dark)) := by
  rw [mapM_plot]
  unfold figure
  rw [plotTests_eq]
  cases hp : (ts.mapM (profilesOf vertical) : Except PyErr (List (Set4 F × Set4 F))) with
  | error e => exact ⟨(by intro e' h; cases h; rfl), (by intro ls h; cases h)⟩
  | ok ps =>
    refine ⟨(by intro e h; cases h), ?_⟩
    intro ls h
    cases h
    simp only [Except.map, bind, Except.bind, pure, Except.pure, List.nil_append]
    cases ps with
    | nil => exact ⟨fun _ => rfl, by intro l hl; simp at hl⟩
    | cons p ps =>
      obtain ⟨t, ht⟩ : ∃ t, profilesOf vertical t = .ok p := by
        cases ts with
        | nil => simp [pure, Except.pure] at hp
        | cons t ts =>
          rw [List.mapM_cons] at hp
          cases ht : (profilesOf vertical t : Except PyErr (Set4 F × Set4 F)) with
          | error e => rw [ht] at hp; cases hp
          | ok p' =>
            refine ⟨t, ?_⟩
            rw [ht] at hp
            cases hq : (ts.mapM (profilesOf vertical) : Except PyErr (List (Set4 F × Set4 F))) with
            | error e => rw [hq] at hp; cases hp
            | ok ps' => rw [hq] at hp; cases hp; exact ht
      have hlen : p.2.min.2.length = p.2.mean.2.length ∧ p.2.max.2.length = p.2.mean.2.length := by
        unfold profilesOf at ht
        cases h1 : imageProfiles vertical (brightImg t.sum t.dark t.L : FImg F) with
        | error e => rw [h1] at ht; cases ht
        | ok b =>
          cases h2 : imageProfiles vertical (darkImg t.dark t.L : FImg F) with
          | error e => rw [h1, h2] at ht; cases ht
          | ok d => rw [h1, h2] at ht; cases ht; exact profile_lengths _ _ _ h2
      have vm := fun (p : Set4 F) => (valuesOf_lines vertical p)
      have em : ∀ c : F, limit c [] = .nan := fun c => by rw [limit, scaled_mean, if_pos rfl]
      have mm : ∀ (f : Set4 F × Set4 F → List F) (c : F), (p :: ps).map (fun p => limit c (f p)) =
          ((p :: ps).map f).map (limit c) := fun f c => by rw [List.map_map]; rfl
      rw [rearrange_eq]
      dsimp only
      rw [mm (fun p => p.1.mean.2), mm (fun p => p.1.mean.2), mm (fun p => p.2.min.2), mm (fun p => p.2.max.2)]
      by_cases hb : p.1.mean.2 = []
      · constructor
        · intro _
          rw [List.map_cons, List.map_cons, List.map_cons, hb, em, em, flMin_nan, flMax_nan]
          rfl
        · intro l hl h1 h2
          cases hl
          exact absurd ((vm p.1).2.2.2.trans hb) h1
      · obtain ⟨ab, a1, a2⟩ := axis_frames p.1.mean.2 p.1.mean.2 (ps.map fun p => p.1.mean.2) (ps.map fun p => p.1.mean.2) hb hb
        by_cases hd : p.2.mean.2 = []
        · constructor
          · intro _
            have d1 : p.2.min.2 = [] := List.length_eq_zero_iff.1 (by rw [hlen.1, hd]; rfl)
            have d2 : p.2.max.2 = [] := List.length_eq_zero_iff.1 (by rw [hlen.2, hd]; rfl)
            rw [List.map_cons, a1, List.map_cons (f := fun p : Set4 F × Set4 F => p.2.min.2), d1,
              List.map_cons (f := limit (9 / 10)), em, flMin_nan, List.map_cons (f := fun p : Set4 F × Set4 F => p.2.max.2),
              d2, List.map_cons (f := limit (11 / 10)), em, flMax_nan]
            rfl
          · intro l hl h1 h2
            cases hl
            exact absurd ((vm p.2).2.2.2.trans hd) h2
        · have n1 : p.2.min.2 ≠ [] := fun h => hd (List.length_eq_zero_iff.1 (by rw [← hlen.1, h]; rfl))
          have n2 : p.2.max.2 ≠ [] := fun h => hd (List.length_eq_zero_iff.1 (by rw [← hlen.2, h]; rfl))
          obtain ⟨ad, d1, d2⟩ := axis_frames p.2.min.2 p.2.max.2 (ps.map fun p => p.2.min.2) (ps.map fun p => p.2.max.2) n1 n2
          constructor
          · rintro (h | ⟨l, hl, h⟩)
            · cases h
            · cases hl
              rcases h with h | h
              · exact absurd ((vm p.1).2.2.2.symm.trans h) hb
              · exact absurd ((vm p.2).2.2.2.symm.trans h) hd
          · intro l hl h1 h2
            refine ⟨ab, ad, ?_, ?_, ?_⟩
            · rw [List.map_cons, a1,
                List.map_cons (f := fun p : Set4 F × Set4 F => p.2.min.2),
                List.map_cons (f := fun p : Set4 F × Set4 F => p.2.max.2), d1]
              rfl
            · simpa [List.map_map, Function.comp_def, vm] using a2
            · simpa [List.map_map, Function.comp_def, vm] using d2

theorem list_sum_bounds {l : List F} {a b : F} (h : ∀ v ∈ l, a ≤ v ∧ v ≤ b) : a * l.length ≤ l.sum ∧ l.sum ≤ b * l.length := by
  induction l with
  | nil => simp
  | cons x l ih =>
    obtain ⟨h1, h2⟩ := ih fun v hv => h v (by simp [hv])
    obtain ⟨h3, h4⟩ := h x (by simp)
    simp only [List.sum_cons, List.length_cons, Nat.cast_add, Nat.cast_one, mul_add, mul_one]
    constructor <;> linarith

theorem averages_bounds {l : List F} {a b m : F} (hm : Averages m l) (h : ∀ v ∈ l, a ≤ v ∧ v ≤ b) : a ≤ m ∧ m ≤ b := by
  obtain ⟨h0, e⟩ := hm
  have hl : (0 : F) < l.length := by exact_mod_cast List.length_pos_iff.2 h0
  obtain ⟨h1, h2⟩ := list_sum_bounds h
  rw [← e] at h1 h2
  exact ⟨le_of_mul_le_mul_right h1 hl, le_of_mul_le_mul_right h2 hl⟩

theorem averages_exists {l : List F} (h : l ≠ []) : ∃ m, Averages m l := ⟨_, averages_iff.2 ⟨h, rfl⟩⟩

/-- all values drawn on an axis are between the pixels, and there is none without a mean profile -/
theorem axis_values (vertical : Bool) (sec : Section F) (mid lo hi mean : List ℕ × List F) (k : ℕ) (hk : k < sec.m) (a b : F)
    (hab : ∀ i < sec.m, ∀ j < sec.n, sec.present i j → a ≤ sec.value i j ∧ sec.value i j ≤ b)
    (h1 : sec.Profile (sec.present k) (fun j v => v = sec.value k j) mid) (h2 : sec.Profile sec.Some sec.IsLeast lo)
    (h3 : sec.Profile sec.Some sec.IsGreatest hi) (h4 : sec.Profile sec.Some sec.IsMean mean)
    (ls : List (String × Line F)) (hls : ls = [("Mid", mid), ("Min", lo), ("Max", hi), ("Mean", mean)].map fun p => (p.1,
          if vertical then Line.vertical p.2.2 p.2.1 else Line.horizontal p.2.1 p.2.2)) :
    valuesOf "Min" ls = lo.2 ∧ valuesOf "Max" ls = hi.2 ∧ valuesOf "Mean" ls = mean.2 ∧
    ∀ p ∈ ls, ∀ v ∈ p.2.values, a ≤ v ∧ v ≤ b ∧ lo.2 ≠ [] ∧ hi.2 ≠ [] ∧ mean.2 ≠ [] := by
  have hv : ∀ p : List ℕ × List F, (if vertical then Line.vertical p.2 p.1 else Line.horizontal p.1 p.2).values = p.2 := by
    intro p; cases vertical <;> rfl
  subst hls
  refine ⟨by simp [valuesOf, hv], by simp [valuesOf, hv], by simp [valuesOf, hv], ?_⟩
  have get : ∀ (p : List ℕ × List F), p.1.length = p.2.length → ∀ v ∈ p.2, ∃ (n j : ℕ), p.1[n]? = some j ∧ p.2[n]? = some v := by
    intro p hl v hv
    obtain ⟨n, hn⟩ := List.mem_iff_getElem?.1 hv
    obtain ⟨hn', -⟩ := List.getElem?_eq_some_iff.1 hn
    exact ⟨n, _, List.getElem?_eq_getElem (by rw [hl]; exact hn'), hn⟩
  have some : ∀ j, j < sec.n → sec.Some j → lo.2 ≠ [] ∧ hi.2 ≠ [] ∧ mean.2 ≠ [] := by
    intro j hj hs
    have key : ∀ {Q : ℕ → F → Prop} (p : List ℕ × List F), sec.Profile sec.Some Q p → p.2 ≠ [] := by
      intro Q p hp h0
      have : j ∈ p.1 := (hp.2.1 j).2 ⟨hj, hs⟩
      have hl := hp.2.2.1
      rw [h0] at hl
      rw [List.length_eq_zero_iff.1 hl] at this
      cases this
    exact ⟨key lo h2, key hi h3, key mean h4⟩
  have c1 : ∀ v ∈ mid.2, a ≤ v ∧ v ≤ b ∧ lo.2 ≠ [] ∧ hi.2 ≠ [] ∧ mean.2 ≠ [] := by
    intro v hv
    obtain ⟨n, j, e1, e2⟩ := get mid h1.2.2.1 v hv
    obtain ⟨hj, hp⟩ := (h1.2.1 j).1 (List.mem_of_getElem? e1)
    have := h1.2.2.2 n j v e1 e2
    subst this
    exact ⟨(hab k hk j hj hp).1, (hab k hk j hj hp).2, some j hj ⟨k, hk, hp⟩⟩
  have c2 : ∀ v ∈ lo.2, a ≤ v ∧ v ≤ b ∧ lo.2 ≠ [] ∧ hi.2 ≠ [] ∧ mean.2 ≠ [] := by
    intro v hv
    obtain ⟨n, j, e1, e2⟩ := get lo h2.2.2.1 v hv
    obtain ⟨hj, hp⟩ := (h2.2.1 j).1 (List.mem_of_getElem? e1)
    obtain ⟨⟨i, hi, hp', rfl⟩, -⟩ := h2.2.2.2 n j v e1 e2
    exact ⟨(hab i hi j hj hp').1, (hab i hi j hj hp').2, some j hj hp⟩
  have c3 : ∀ v ∈ hi.2, a ≤ v ∧ v ≤ b ∧ lo.2 ≠ [] ∧ hi.2 ≠ [] ∧ mean.2 ≠ [] := by
    intro v hv
    obtain ⟨n, j, e1, e2⟩ := get hi h3.2.2.1 v hv
    obtain ⟨hj, hp⟩ := (h3.2.1 j).1 (List.mem_of_getElem? e1)
    obtain ⟨⟨i, hi, hp', rfl⟩, -⟩ := h3.2.2.2 n j v e1 e2
    exact ⟨(hab i hi j hj hp').1, (hab i hi j hj hp').2, some j hj hp⟩
  have c4 : ∀ v ∈ mean.2, a ≤ v ∧ v ≤ b ∧ lo.2 ≠ [] ∧ hi.2 ≠ [] ∧ mean.2 ≠ [] := by
    intro v hv
    obtain ⟨n, j, e1, e2⟩ := get mean h4.2.2.1 v hv
    obtain ⟨hj, hp⟩ := (h4.2.1 j).1 (List.mem_of_getElem? e1)
    obtain ⟨is, -, mi, ne, sm⟩ := h4.2.2.2 n j v e1 e2
    obtain ⟨b1, b2⟩ := averages_bounds (l := is.map fun i => sec.value i j) (a := a) (b := b) (m := v)
      ⟨by simpa using ne, by simpa using sm⟩ fun w hw => by
        obtain ⟨i, hi, rfl⟩ := List.mem_map.1 hw
        exact hab i ((mi i).1 hi).1 j hj ((mi i).1 hi).2
    exact ⟨b1, b2, some j hj hp⟩
  intro p hp v hv'
  simp only [List.map_cons, List.map_nil, List.mem_cons, List.not_mem_nil, or_false] at hp
  rcases hp with rfl | rfl | rfl | rfl <;> rw [hv] at hv'
  · exact c1 v hv'
  · exact c2 v hv'
  · exact c3 v hv'
  · exact c4 v hv'

theorem visible_of_frames {los his : List (List F)} {ax : F × F} (h : Frames los his ax) {lo hi : List F} (hlo : lo ∈ los)
    (hhi : hi ∈ his) (n1 : lo ≠ []) (n2 : hi ≠ []) {a b v : F} (ha : 0 ≤ a) (hab : b ≤ 11 / 10 * a)
    (b1 : ∀ v ∈ lo, a ≤ v ∧ v ≤ b) (b2 : ∀ v ∈ hi, a ≤ v ∧ v ≤ b) (hv : a ≤ v ∧ v ≤ b) : Visible ax v := by
  obtain ⟨-, f1, -, f2⟩ := h
  obtain ⟨m, hm⟩ := averages_exists n1
  obtain ⟨n, hn⟩ := averages_exists n2
  have g1 := f1 lo hlo m hm
  have g2 := f2 hi hhi n hn
  have g3 := (averages_bounds hm b1).2
  have g4 := (averages_bounds hn b2).1
  constructor
  · refine (min_le_left _ _).trans ?_
    linarith [hv.1]
  · refine le_trans ?_ (le_max_right _ _)
    linarith [hv.2]

theorem mapM_getElem {α β : Type} {f : α → Except PyErr β} {l : List α} {r : List β} (h : l.mapM f = .ok r) {n : ℕ} {x : α}
    {y : β} (hx : l[n]? = some x) (hy : r[n]? = some y) : f x = .ok y := by
  induction l generalizing r n with
  | nil => simp at hx
  | cons a l ih =>
    rw [List.mapM_cons] at h
    cases ha : f a with
    | error e => rw [ha] at h; cases h
    | ok b =>
      cases hl : l.mapM f with
      | error e => rw [ha, hl] at h; cases h
      | ok r' =>
        rw [ha, hl] at h
        cases h
        cases n with
        | zero => simp at hx hy; rw [← hx, ← hy]; exact ha
        | succ n => exact ih hl (by simpa using hx) (by simpa using hy)

/-- a finished figure: what is drawn and the limits -/
theorem figure_frames {vertical : Bool} {ts : List Test} {ls : List (List (String × Line F) × List (String × Line F))}
    {bright dark : F × F} (h : figure vertical ts = .ok (ls, bright, dark)) :
    (ts.mapM fun t => (plot vertical t.sum t.dark t.L : Except PyErr (List (String × Line F) × List (String × Line F)))) =
      .ok ls ∧ Frames (ls.map fun l => valuesOf "Mean" l.1) (ls.map fun l => valuesOf "Mean" l.1) bright ∧
    Frames (ls.map fun l => valuesOf "Min" l.2) (ls.map fun l => valuesOf "Max" l.2) dark := by
  obtain ⟨c1, c2⟩ := C98_limits (F := F) vertical ts
  cases hm : (ts.mapM fun t => (plot vertical t.sum t.dark t.L : Except PyErr (List (String × Line F) × List (String × Line F)))) with
  | error e => rw [c1 e hm] at h; cases h
  | ok ls' =>
    obtain ⟨c3, c4⟩ := c2 ls' hm
    cases hls : ls' with
    | nil => rw [c3 (.inl hls)] at h; cases h
    | cons l0 lt =>
      have h0 : ls'[0]? = some l0 := by rw [hls]; rfl
      by_cases he : valuesOf "Mean" l0.1 = [] ∨ valuesOf "Mean" l0.2 = []
      · rw [c3 (.inr ⟨l0, h0, he⟩)] at h; cases h
      · rw [not_or] at he
        obtain ⟨br, dk, e, f1, f2⟩ := c4 l0 h0 he.1 he.2
        rw [e] at h
        cases h
        rw [← hls]
        exact ⟨rfl, f1, f2⟩

theorem averages_unique {l : List F} {m n : F} (h : Averages m l) (h' : Averages n l) : m = n :=
  (averages_iff.1 h).2.trans (averages_iff.1 h').2.symm

/-- C98: what is visible.  In a figure with any number of tests, all lines of a test on the bright axis are
between the limits if the differences of bright and dark image (divided by the number of images) of the unmasked
pixels of this test are in a range `[a, b]` with `0 ≤ a` and `b ≤ 1.1 a`; the same for the lines on the dark axis
and the pixels of the dark image.  (Partial: the lines should be visible for all images; `C98_hidden` shows that
they are not.) -/
theorem C98_visible_partial (vertical : Bool) (ts : List Test) (ls : List (List (String × Line F) × List (String × Line F)))
    (bright dark : F × F) (h : figure vertical ts = .ok (ls, bright, dark)) (n : ℕ) (t : Test)
    (l : List (String × Line F) × List (String × Line F)) (ht : ts[n]? = some t) (hl : ls[n]? = some l) (a b : F)
    (ha : 0 ≤ a) (hab : b ≤ 11 / 10 * a) :
    ((∀ i < t.sum.h, ∀ j < t.sum.w, t.sum.masked i j = false → t.dark.masked i j = false →
        a ≤ ((t.sum.px i j : F) - (t.dark.px i j : F)) / t.L ∧ ((t.sum.px i j : F) - (t.dark.px i j : F)) / t.L ≤ b) →
      ∀ p ∈ l.1, ∀ v ∈ p.2.values, Visible bright v) ∧
    ((∀ i < t.dark.h, ∀ j < t.dark.w, t.dark.masked i j = false →
        a ≤ (t.dark.px i j : F) / t.L ∧ (t.dark.px i j : F) / t.L ≤ b) →
      ∀ p ∈ l.2, ∀ v ∈ p.2.values, Visible dark v) := by
  obtain ⟨hm, f1, f2⟩ := figure_frames h
  have hpl := mapM_getElem hm ht hl
  have hmem := List.mem_of_getElem? hl
  obtain ⟨bl, dl⟩ := l
  have key := C60_plot vertical t.sum t.dark t.L bl dl hpl _ _ rfl rfl
  constructor
  · intro hpx p hp v hv
    obtain ⟨mid, lo, hi, mean, k, hk, -, p1, p2, p3, p4, p5⟩ := key bl _ (.inl ⟨rfl, rfl⟩)
    obtain ⟨v1, v2, v3, v4⟩ := axis_values vertical _ mid lo hi mean k hk a b (by
      cases vertical
      · exact fun i hi j hj hp => hpx i hi j hj hp.1 hp.2
      · exact fun i hi j hj hp => hpx j hj i hi hp.1 hp.2) p1 p2 p3 p4 bl p5
    obtain ⟨w1, w2, w3, w4, w5⟩ := v4 p hp v hv
    have hmean : ("Mean", if vertical then Line.vertical mean.2 mean.1 else Line.horizontal mean.1 mean.2) ∈ bl := by
      rw [p5]; simp
    have hall : ∀ v ∈ mean.2, a ≤ v ∧ v ≤ b := fun w hw => by
      obtain ⟨q1, q2, -⟩ := v4 _ hmean w (by cases vertical <;> exact hw)
      exact ⟨q1, q2⟩
    exact visible_of_frames f1 (List.mem_map.2 ⟨_, hmem, v3⟩) (List.mem_map.2 ⟨_, hmem, v3⟩) w5 w5 ha hab hall hall ⟨w1, w2⟩
  · intro hpx p hp v hv
    obtain ⟨mid, lo, hi, mean, k, hk, -, p1, p2, p3, p4, p5⟩ := key dl _ (.inr ⟨rfl, rfl⟩)
    obtain ⟨v1, v2, v3, v4⟩ := axis_values vertical _ mid lo hi mean k hk a b (by
      cases vertical
      · exact fun i hi j hj hp => hpx i hi j hj hp
      · exact fun i hi j hj hp => hpx j hj i hi hp) p1 p2 p3 p4 dl p5
    obtain ⟨w1, w2, w3, w4, w5⟩ := v4 p hp v hv
    have hlo : ("Min", if vertical then Line.vertical lo.2 lo.1 else Line.horizontal lo.1 lo.2) ∈ dl := by
      rw [p5]; simp
    have hhi : ("Max", if vertical then Line.vertical hi.2 hi.1 else Line.horizontal hi.1 hi.2) ∈ dl := by
      rw [p5]; simp
    have hall1 : ∀ v ∈ lo.2, a ≤ v ∧ v ≤ b := fun w hw => by
      obtain ⟨q1, q2, -⟩ := v4 _ hlo w (by cases vertical <;> exact hw)
      exact ⟨q1, q2⟩
    have hall2 : ∀ v ∈ hi.2, a ≤ v ∧ v ≤ b := fun w hw => by
      obtain ⟨q1, q2, -⟩ := v4 _ hhi w (by cases vertical <;> exact hw)
      exact ⟨q1, q2⟩
    exact visible_of_frames f2 (List.mem_map.2 ⟨_, hmem, v1⟩) (List.mem_map.2 ⟨_, hmem, v2⟩) w3 w4 ha hab hall1 hall2 ⟨w1, w2⟩

/-- C98: with one test, a value on the bright axis is visible exactly if it differs from the mean of the drawn
mean profile by at most a tenth of it, and a value on the dark axis exactly if it is between 90 % of the mean of the
drawn minimum profile and 110 % of the mean of the drawn maximum profile. -/
theorem C98_single (vertical : Bool) (t : Test) (l : List (String × Line F) × List (String × Line F)) (bright dark : F × F)
    (h : figure vertical [t] = .ok ([l], bright, dark)) (m lo hi : F) (hm : Averages m (valuesOf "Mean" l.1))
    (hlo : Averages lo (valuesOf "Min" l.2)) (hhi : Averages hi (valuesOf "Max" l.2)) (v : F) :
    (Visible bright v ↔ |v - m| ≤ |m| / 10) ∧
    (0 ≤ lo → lo ≤ hi → (Visible dark v ↔ 9 / 10 * lo ≤ v ∧ v ≤ 11 / 10 * hi)) := by
  obtain ⟨-, ⟨⟨_, a1, μ, a2, a3⟩, -, ⟨_, b1, ν, b2, b3⟩, -⟩, ⟨⟨_, c1, ξ, c2, c3⟩, -, ⟨_, d1, ζ, d2, d3⟩, -⟩⟩ := figure_frames h
  simp only [List.map_cons, List.map_nil, List.mem_singleton] at a1 b1 c1 d1
  subst a1 b1 c1 d1
  obtain rfl := averages_unique a2 hm
  obtain rfl := averages_unique b2 hm
  obtain rfl := averages_unique c2 hlo
  obtain rfl := averages_unique d2 hhi
  unfold Visible
  rw [a3, b3, c3, d3]
  constructor
  · rw [abs_le]
    rcases le_total 0 ν with h0 | h0
    · rw [min_eq_left (by linarith), max_eq_right (by linarith), abs_of_nonneg h0]
      constructor <;> rintro ⟨x, y⟩ <;> constructor <;> linarith
    · rw [min_eq_right (by linarith), max_eq_left (by linarith), abs_of_nonpos h0]
      constructor <;> rintro ⟨x, y⟩ <;> constructor <;> linarith
  · intro h1 h2
    rw [min_eq_left (by linarith), max_eq_right (by linarith)]

/-- Four columns of two pixels, 10 DN per image and a hot pixel with 30 DN in the bright image; the dark image has
2 DN and a hot pixel with 20 DN. -/
def hotBright : Test := ⟨⟨2, 4, fun i j => if i = 1 ∧ j = 3 then 32 else 12, none⟩, ⟨2, 4, fun _ _ => 2, none⟩, 1⟩

def hotDark : Test := ⟨⟨2, 4, fun i j => if i = 1 ∧ j = 3 then 30 else 12, none⟩,
  ⟨2, 4, fun i j => if i = 1 ∧ j = 3 then 20 else 2, none⟩, 1⟩

set_option synthInstance.maxSize 1024 in
theorem figure_hotBright : figure false [hotBright] = .ok ([(
    [("Mid", .horizontal [0, 1, 2, 3] [10, 10, 10, 30]), ("Min", .horizontal [0, 1, 2, 3] [10, 10, 10, 10]),
      ("Max", .horizontal [0, 1, 2, 3] [10, 10, 10, 30]), ("Mean", .horizontal [0, 1, 2, 3] [10, 10, 10, 20])],
    [("Mid", .horizontal [0, 1, 2, 3] [2, 2, 2, 2]), ("Min", .horizontal [0, 1, 2, 3] [2, 2, 2, 2]),
      ("Max", .horizontal [0, 1, 2, 3] [2, 2, 2, 2]), ("Mean", .horizontal [0, 1, 2, 3] [2, 2, 2, 2])])],
    ((45 / 4 : ℚ), 55 / 4), (9 / 5, 11 / 5)) := by decide +kernel

set_option synthInstance.maxSize 1024 in
theorem figure_hotDark : figure true [hotDark] = .ok ([(
    [("Mid", .vertical [10, 10] [0, 1]), ("Min", .vertical [10, 10] [0, 1]),
      ("Max", .vertical [10, 10] [0, 1]), ("Mean", .vertical [10, 10] [0, 1])],
    [("Mid", .vertical [2, 2] [0, 1]), ("Min", .vertical [2, 2] [0, 1]),
      ("Max", .vertical [2, 20] [0, 1]), ("Mean", .vertical [2, 13 / 2] [0, 1])])],
    ((9 : ℚ), 11), (9 / 5, 121 / 10)) := by decide +kernel

/-- C98: a hot pixel is not visible in the profile plots: neither the maximum profile of the bright image at its
column (with it goes the whole background, which is below the lower limit), nor that of the dark image at its row. -/
theorem C98_hidden :
    (∃ l bright dark, figure false [hotBright] = .ok ([l], bright, dark) ∧ (30 : ℚ) ∈ valuesOf "Max" l.1 ∧
      ¬ Visible bright 30 ∧ ∀ v ∈ valuesOf "Max" l.1, ¬ Visible bright v) ∧
    ∃ l bright dark, figure true [hotDark] = .ok ([l], bright, dark) ∧ (20 : ℚ) ∈ valuesOf "Max" l.2 ∧
      ¬ Visible dark 20 := by
  refine ⟨⟨_, _, _, figure_hotBright, by decide +kernel, ?_, ?_⟩, _, _, _, figure_hotDark, by decide +kernel, ?_⟩
  · unfold Visible; norm_num
  · intro v hv
    have : v = 10 ∨ v = 30 := by
      have : ∀ v ∈ ([10, 10, 10, 30] : List ℚ), v = 10 ∨ v = 30 := by decide +kernel
      exact this v hv
    rcases this with rfl | rfl <;> unfold Visible <;> norm_num
  · unfold Visible; norm_num

/-- two tests, one ten times as bright as the other -/
def evenTest (g : ℤ) : Test := ⟨⟨2, 3, fun i j => g * (100 + i + j) + 20, none⟩, ⟨2, 3, fun _ j => 20 + if j = 1 then 1 else 0, none⟩, 2⟩

example : ∃ ls bright dark, figure false [evenTest 1, evenTest 10] = .ok (ls, bright, dark) ∧
    ∀ l, ls[0]? = some l → ∀ p ∈ l.1, ∀ v ∈ p.2.values, Visible bright (v : ℚ) := by
  have h : ∃ ls bright dark, (figure false [evenTest 1, evenTest 10] : Except PyErr (_ × ((ℚ × ℚ) × (ℚ × ℚ)))) =
      .ok (ls, bright, dark) := by
    have hx : ∃ x, (figure false [evenTest 1, evenTest 10] : Except PyErr (_ × ((ℚ × ℚ) × (ℚ × ℚ)))) = .ok x := by
      cases hf : (figure false [evenTest 1, evenTest 10] : Except PyErr (_ × ((ℚ × ℚ) × (ℚ × ℚ)))) with
      | ok x => exact ⟨x, rfl⟩
      | error e =>
        have : (figure false [evenTest 1, evenTest 10] : Except PyErr (_ × ((ℚ × ℚ) × (ℚ × ℚ)))).isOk = true := by
          decide +kernel
        rw [hf] at this; cases this
    obtain ⟨⟨ls, b, d⟩, h⟩ := hx
    exact ⟨ls, b, d, h⟩
  obtain ⟨ls, bright, dark, h⟩ := h
  refine ⟨ls, bright, dark, h, fun l hl => ?_⟩
  refine (C98_visible_partial false _ ls bright dark h 0 (evenTest 1) l rfl hl (99 / 2) (103 / 2) (by norm_num) (by norm_num)).1 ?_
  intro i hi j hj _ _
  have hi' : i < 2 := hi
  have hj' : j < 3 := hj
  interval_cases i <;> interval_cases j <;> constructor <;> norm_num [evenTest]

end Emva
