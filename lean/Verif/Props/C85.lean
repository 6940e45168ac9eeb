import Verif.Lemmas.Dataset
import Verif.Props.C49

/-!
C85: the data evaluated from a generated dataset are those of the images that were grabbed.
-/
set_option autoImplicit false
set_option linter.unusedSectionVars false
namespace Emva
open Py Loader Spec Data Emva.Parser Gen Pipeline Disk

/-- The image a file shows: the grabbed image, except that a png file of a camera with more than 16 bits has no grey
values above 65535. -/
def Spec.shown (f : Format) (bits : ℕ) (img : Img) : Img :=
  if f = .png ∧ 16 < bits then { img with px := fun i j => min (img.px i j) 65535 } else img

/-- an image of a camera with the bit depth `bits` -/
def Spec.Fits (bits : ℕ) (img : Img) : Prop := ∀ i j, 0 ≤ img.px i j ∧ img.px i j < 2 ^ bits

/-- C85: writing and reading an image of up to 31 bits: a tiff file keeps every image, a png file the images of up to 16
bits; above, the grey values are clipped at 65535. -/
theorem C85_file (f : Format) (bits : ℕ) (hb : bits ≤ 31) (img : Img) (hi : Spec.Fits bits img) :
    reread f (encode bits img) = Spec.shown f bits img := by
  have key : ∀ i j, rereadPx f (modeOf bits) (encodePx (modeOf bits) (img.px i j)) =
      if f = .png ∧ 16 < bits then min (img.px i j) 65535 else img.px i j := by
    intro i j
    obtain ⟨h0, h1⟩ := hi i j
    have hle : (2 : ℤ) ^ bits ≤ 2 ^ 31 := pow_le_pow_right₀ (by norm_num) hb
    unfold modeOf
    by_cases h8 : bits ≤ 8
    · rw [if_pos h8]
      have h2 : (2 : ℤ) ^ bits ≤ 2 ^ 8 := pow_le_pow_right₀ (by norm_num) h8
      have hn : ¬ (f = .png ∧ 16 < bits) := by omega
      rw [if_neg hn]
      have : encodePx .L (img.px i j) = img.px i j := by
        simp only [encodePx]; omega
      rw [this]
      cases f <;> rfl
    · rw [if_neg h8]
      have : encodePx .I (img.px i j) = img.px i j := by
        simp only [encodePx, Int.bmod]
        norm_num at hle ⊢
        split <;> omega
      rw [this]
      cases f with
      | tiff => simp [rereadPx]
      | png =>
        simp only [rereadPx, true_and]
        rw [max_eq_left h0]
        split
        · rfl
        · rename_i h16
          have h2 : (2 : ℤ) ^ bits ≤ 2 ^ 16 := pow_le_pow_right₀ (by norm_num) (by omega)
          norm_num at h2
          exact min_eq_left (by omega)
  unfold reread encode Spec.shown
  simp only [key]
  split <;> rfl

/-- C85: which formats keep the images, by the extension of the files: an image of up to 31 bits that was written with the
extension `tif` or `tiff` is read unchanged, and one of up to 16 bits also with `png`; whatever the other files are. -/
theorem C85_formats (ext : String) (bits : ℕ) (img : Img) (hi : Spec.Fits bits img)
    (h : (ext = "tif" ∨ ext = "tiff") ∧ bits ≤ 31 ∨ ext = "png" ∧ bits ≤ 16) (files : Dict Str (PMode × Img)) (path : Str) :
    fload ext.toList (Dict.set files path (encode bits img)) path = some (.ok img) := by
  have key : ∀ f, formatOf ext.toList = some f → bits ≤ 31 → ¬ (f = .png ∧ 16 < bits) →
      fload ext.toList (Dict.set files path (encode bits img)) path = some (.ok img) := by
    intro f hf hb hn
    unfold fload
    rw [hf]
    simp only [Dict.get?_set_self, Option.map_some]
    rw [C85_file f bits hb img hi, Spec.shown, if_neg hn]
  rcases h with ⟨rfl | rfl, hb⟩ | ⟨rfl, hb⟩
  · exact key .tiff (by decide +kernel) hb (by simp)
  · exact key .tiff (by decide +kernel) hb (by simp)
  · exact key .png (by decide +kernel) (by omega) (by simp; omega)

theorem shown_size (f : Format) (bits : ℕ) (img : Img) :
    (Spec.shown f bits img).h = img.h ∧ (Spec.shown f bits img).w = img.w := by
  unfold Spec.shown
  split <;> exact ⟨rfl, rfl⟩

theorem shown_range (f : Format) (bits : ℕ) (img : Img) (hi : Spec.Fits bits img) :
    ∀ i j, 0 ≤ (Spec.shown f bits img).px i j ∧ (Spec.shown f bits img).px i j ≤ 2 ^ bits - 1 := by
  intro i j
  have := hi i j
  unfold Spec.shown
  split
  · simp only
    omega
  · omega

theorem exists_forall₂ {α β : Type} {R : α → β → Prop} : ∀ (l : List α), (∀ x ∈ l, ∃ y, R x y) → ∃ ys, List.Forall₂ R l ys
  | [], _ => ⟨[], .nil⟩
  | a :: l, h => by
    obtain ⟨y, hy⟩ := h a (by simp)
    obtain ⟨ys, hys⟩ := exists_forall₂ l fun x hx => h x (by simp [hx])
    exact ⟨y :: ys, .cons hy hys⟩

theorem map_forall₂ {α β γ : Type} {R : α → β → Prop} {l : List α} {l' : List β} (h : List.Forall₂ R l l')
    (f : α → γ) (g : β → γ) (hfg : ∀ a b, R a b → f a = g b) : l.map f = l'.map g := by
  induction h with
  | nil => rfl
  | cons hab _ ih => rw [List.map_cons, List.map_cons, hfg _ _ hab, ih]

theorem forall₂_right {α β : Type} {R : α → β → Prop} {l : List α} {l' : List β} (h : List.Forall₂ R l l') :
    ∀ b ∈ l', ∃ a ∈ l, R a b := by
  induction h with
  | nil => simp
  | cons hab _ ih =>
    rintro b (_ | ⟨_, hb⟩)
    · exact ⟨_, by simp, hab⟩
    · obtain ⟨a, ha, hr⟩ := ih b hb
      exact ⟨a, by simp [ha], hr⟩

theorem forall₂_of_map {α γ : Type} {R : α → α → Prop} (g : α → γ) : ∀ (l : List α) {l' : List α}, l.map g = l'.map g →
    (∀ a b, a ∈ l → b ∈ l' → g a = g b → R a b) → List.Forall₂ R l l'
  | [], [], _, _ => .nil
  | [], b :: l', h, _ => by simp at h
  | a :: l, [], h, _ => by simp at h
  | a :: l, b :: l', h, hr => by
    simp only [List.map_cons, List.cons.injEq] at h
    exact .cons (hr a b (by simp) (by simp) h.1) (forall₂_of_map g l h.2 fun x y hx hy => hr x y (by simp [hx]) (by simp [hy]))

/-- the temporal data of a dictionary with the entries of the points `T` -/
theorem temporal_points {τ : Type} (D : KindData ℚ (TemporalEntry ℚ)) (hwf : WF2 D) (T : List τ) (K : τ → ℚ × ℚ)
    (en : τ → TemporalEntry ℚ) (dk0 : τ → Bool) (px : ℕ) (val : τ → Fl ℚ × Fl ℚ)
    (hT : ∀ e p v, get2 D e p = some v ↔ ∃ t ∈ T, K t = (e, p) ∧ v = en t)
    (hdark : ∀ t ∈ T, dk0 t = true ↔ (K t).2 = 0) (hnn : NonNegPhotons D) (hnd : (T.map K).Nodup)
    (hpair : ∀ t ∈ T, seriesPoint px (en t) = val t) (tt : Temporal ℚ) (htt : getTemporal px D = .ok tt) :
    ∃ ks, ks.Perm (T.filter fun t => !dk0 t) ∧
      ks.Pairwise (fun a b => (K a).1 < (K b).1 ∨ ((K a).1 = (K b).1 ∧ (K a).2 < (K b).2)) ∧
      tt.u_p = ks.map (fun t => (K t).2) ∧
      tt.u_y = ks.map (fun t => (val t).1) ∧
      tt.s2_y = ks.map (fun t => (val t).2) ∧
      ((∀ t ∈ T, ∀ t' ∈ T, (K t).1 = (K t').1) ∨
          (∀ t ∈ T, ∀ t' ∈ T, (K t).1 = (K t').1 → dk0 t = false → dk0 t' = false → t = t') →
        tt.texp = ks.map (fun t => (K t).1) ∧
        ∃ ds, List.Forall₂ (fun t d => d ∈ T ∧ (K d).1 = (K t).1 ∧ dk0 d = true) ks ds ∧
          tt.u_ydark = ds.map (fun t => (val t).1) ∧
          tt.s2_ydark = ds.map (fun t => (val t).2)) := by
  have hTnd : T.Nodup := List.Nodup.of_map K hnd
  have hinj : ∀ t ∈ T, ∀ t' ∈ T, K t = K t' → t = t' := fun t h1 t' h2 h3 => List.inj_on_of_nodup_map hnd h1 h2 h3
  obtain ⟨pts, hB, u1, u2, u3⟩ := C17_sorted_aligned _ D hwf hnn tt htt
  obtain ⟨-, -, -, -, u4, -⟩ := C18_lengths _ D hwf hnn tt htt pts hB
  obtain ⟨ks, hks⟩ := exists_forall₂ (R := fun x t => t ∈ T ∧ K t = (x.1, x.2.1) ∧ x.2.2 = en t)
    pts (fun x hx => by
      obtain ⟨t, a1, a2, a3⟩ := (hT _ _ _).1 ((hB.mem x.1 x.2.1 x.2.2).1 hx).2
      exact ⟨t, a1, a2, a3⟩)
  have hkT : ∀ t ∈ ks, t ∈ T ∧ dk0 t = false := by
    intro t htk
    obtain ⟨x, hx, a1, a2, a3⟩ := forall₂_right hks t htk
    refine ⟨a1, ?_⟩
    have h0 := ((hB.mem x.1 x.2.1 x.2.2).1 hx).1
    rw [Bool.eq_false_iff]
    intro hdk
    have := (hdark t a1).1 hdk
    rw [a2] at this
    exact h0 this
  have hkeys : pts.map (fun x => (x.1, x.2.1)) = ks.map (K) := map_forall₂ hks _ _ fun a b hab => hab.2.1.symm
  have hsorted : ks.Pairwise (fun a b => (K a).1 < (K b).1 ∨
        ((K a).1 = (K b).1 ∧ (K a).2 < (K b).2)) := by
    have : (pts.map fun x => (x.1, x.2.1)).Pairwise (fun a b => a.1 < b.1 ∨ (a.1 = b.1 ∧ a.2 < b.2)) := by
      rw [List.pairwise_map]; exact hB.sorted
    rw [hkeys, List.pairwise_map] at this
    exact this
  refine ⟨ks, ?_, hsorted, ?_, ?_, ?_, ?_⟩
  · refine (List.perm_ext_iff_of_nodup ?_ (hTnd.filter _)).2 fun t => ?_
    · refine hsorted.imp ?_
      intro a b hab hc
      subst hc
      rcases hab with hab | hab
      · exact lt_irrefl _ hab
      · exact lt_irrefl _ hab.2
    · rw [List.mem_filter]
      constructor
      · intro htk
        have := hkT t htk
        exact ⟨this.1, by simp [this.2]⟩
      · rintro ⟨htT, htd⟩
        have h0 : (K t).2 ≠ 0 := by
          intro h0
          rw [(hdark t htT).2 h0] at htd
          simp at htd
        have hin : ((K t).1, (K t).2, en t) ∈ pts :=
          (hB.mem _ _ _).2 ⟨h0, (hT _ _ _).2 ⟨t, htT, rfl, rfl⟩⟩
        have : K t ∈ ks.map (K) := by
          rw [← hkeys]
          exact List.mem_map.2 ⟨_, hin, rfl⟩
        obtain ⟨t', ht', he'⟩ := List.mem_map.1 this
        rw [← hinj t' (hkT t' ht').1 t htT he']
        exact ht'
  · show tt.u_p = _
    rw [u1]
    exact map_forall₂ hks _ _ fun a b hab => by rw [hab.2.1]
  · show tt.u_y = _
    rw [u2]
    exact map_forall₂ hks _ _ fun a b hab => by rw [hab.2.2, hpair b hab.1]
  · show tt.s2_y = _
    rw [u3]
    exact map_forall₂ hks _ _ fun a b hab => by rw [hab.2.2, hpair b hab.1]
  · intro hone
    have hP : Paired D := by
      by_contra hc
      rw [(C17_acceptance _ _ hwf).2 hc] at htt
      simp at htt
    have hkey : ∀ e1, e1 ∈ Dict.keys D → ∃ t ∈ T, (K t).1 = e1 ∧ dk0 t = false := by
      intro e1 he1
      obtain ⟨i, hi⟩ := (Dict.has_iff_exists _ _).1 ((Dict.has_iff _ _).2 he1)
      obtain ⟨-, p1, v, hp1, hv⟩ := hP e1 i hi
      obtain ⟨t, a1, a2, -⟩ := (hT e1 p1 v).1 (by simp [get2, hi, hv])
      refine ⟨t, a1, by rw [a2], ?_⟩
      rw [Bool.eq_false_iff]
      intro hdk
      have := (hdark t a1).1 hdk
      rw [a2] at this
      exact hp1 this
    have hcond : D.length = 1 ∨ ∀ e ∈ Dict.keys D, ∃! p, p ≠ 0 ∧ (get2 D e p).isSome := by
      rcases hone with hone | hone
      · cases hkl : D with
        | nil => exact .inr (by simp [Dict.keys])
        | cons x l =>
          cases l with
          | nil => exact .inl rfl
          | cons y l =>
            exfalso
            have hnd : (Dict.keys D).Nodup := hwf.1
            obtain ⟨t1, a1, b1, -⟩ := hkey x.1 (by rw [hkl]; simp [Dict.keys])
            obtain ⟨t2, a2, b2, -⟩ := hkey y.1 (by rw [hkl]; simp [Dict.keys])
            have := hone t1 a1 t2 a2
            rw [b1, b2] at this
            rw [hkl] at hnd
            simp [Dict.keys, this] at hnd
      · right
        intro e1 he1
        obtain ⟨t, a1, a2, a3⟩ := hkey e1 he1
        refine ⟨(K t).2, ⟨fun h0 => ?_, ?_⟩, ?_⟩
        · rw [(hdark t a1).2 h0] at a3
          simp at a3
        · rw [(hT e1 _ _).2 ⟨t, a1, by rw [← a2], rfl⟩]
          rfl
        · rintro p1 ⟨hp1, hv⟩
          obtain ⟨v, hv⟩ := Option.isSome_iff_exists.1 hv
          obtain ⟨t', a1', a2', -⟩ := (hT e1 p1 v).1 hv
          have hd' : dk0 t' = false := by
            rw [Bool.eq_false_iff]
            intro hdk
            have := (hdark t' a1').1 hdk
            rw [a2'] at this
            exact hp1 this
          rw [hone t a1 t' a1' (by rw [a2, a2']) a3 hd', a2']
    obtain ⟨v1, dk, v2, v3, v4⟩ := u4 hcond
    obtain ⟨ds, hds⟩ := exists_forall₂ (R := fun (p : (ℚ × ℚ × TemporalEntry ℚ) × TemporalEntry ℚ) t =>
        t ∈ T ∧ K t = (p.1.1, 0) ∧ p.2 = en t) (pts.zip dk) (fun x hx => by
      have := (List.forall₂_iff_zip.1 v2).2 hx
      obtain ⟨t, a1, a2, a3⟩ := (hT _ _ _).1 this
      exact ⟨t, a1, a2, a3⟩)
    have hdk : dk = (pts.zip dk).map (·.2) := by
      rw [List.map_snd_zip]
      exact (List.Forall₂.length_eq v2).ge
    have hpt : pts = (pts.zip dk).map (·.1) := by
      rw [List.map_fst_zip]
      exact (List.Forall₂.length_eq v2).le
    refine ⟨?_, ds, ?_, ?_, ?_⟩
    · show tt.texp = _
      rw [v1]
      exact map_forall₂ hks _ _ fun a b hab => by rw [hab.2.1]
    · have e1 : ks.map (fun t => (K t).1) = ds.map (fun t => (K t).1) := by
        rw [← map_forall₂ hds (fun p => p.1.1) _ fun a b hab => by rw [hab.2.1]]
        rw [← map_forall₂ hks (fun p => p.1) _ fun a b hab => by rw [hab.2.1]]
        conv_lhs => rw [hpt]
        rw [List.map_map]
        rfl
      refine forall₂_of_map _ _ e1 ?_
      intro t d htk hdd he
      obtain ⟨x, hx, a1, a2, a3⟩ := forall₂_right hds d hdd
      exact ⟨a1, he.symm, (hdark d a1).2 (by rw [a2])⟩
    · show tt.u_ydark = _
      rw [v3, hdk, List.map_map]
      exact map_forall₂ hds _ _ fun a b hab => by rw [Function.comp, hab.2.2, hpair b hab.1]
    · show tt.s2_ydark = _
      rw [v4, hdk, List.map_map]
      exact map_forall₂ hds _ _ fun a b hab => by rw [Function.comp, hab.2.2, hpair b hab.1]

section
variable {ρ : Type} (S : Setup ρ) (c : Cfg)

/-- the key of a point of the data -/
def Spec.keyOf (t : ℚ × ρ × List Img) : ℚ × ℚ := key t.1 (radiance S t.1 t.2.1)

theorem map_shots (grab : ℕ → ℚ → ρ → Img) (n L : ℕ) (pts : List (ℚ × List ρ)) :
    (shots grab n L pts).map (Spec.keyOf S) = (flat (seenPts S pts)).map fun q => key q.1 q.2 := by
  unfold shots Spec.keyOf
  rw [map_mapIdx', flat_seenPts, List.map_map]
  exact List.ext_getElem (by simp) fun i h1 h2 => by simp

theorem imagesAt_shots (e0 : ℚ) (temporal spatial : List (ℚ × List ρ)) (f : Format) (hf0 : formatOf c.imageFormat = some f)
    (ns : List ℕ) (e : ℚ) (r : ρ)
    (hf : ∀ n e r, reread f (encode c.bits (S.grab n e r)) = Spec.shown f c.bits (S.grab n e r))
    (h : ∀ n ∈ ns, (logOf c temporal spatial)[n]? = some (e, r)) :
    imagesAt (fload c.imageFormat (run S c e0 temporal spatial).files) [] (ns.map (fileOf c))
      = ns.map fun n => Spec.shown f c.bits (S.grab n e r) := by
  induction ns with
  | nil => rfl
  | cons n ns ih =>
    have h1 := files_get S c e0 temporal spatial n e r (h n (by simp))
    have hj : join1 [] (fileOf c n) = fileOf c n := by unfold join1; split <;> simp
    have h2 : imageAt (fload c.imageFormat (run S c e0 temporal spatial).files) [] (fileOf c n)
        = some (Spec.shown f c.bits (S.grab n e r)) := by
      simp [imageAt, hj, fload, h1, hf, hf0]
    have := ih fun m hm => h m (by simp [hm])
    unfold imagesAt at this ⊢
    rw [List.map_cons, List.filterMap_cons_some h2, List.map_cons, this]

theorem log_temporal (temporal spatial : List (ℚ × List ρ)) (j : ℕ) (q : ℚ × ρ) (hq : (flatPoints temporal)[j]? = some q)
    (l : ℕ) (hl : l < 2) : (logOf c temporal spatial)[0 + 2 * j + l]? = some q := by
  unfold logOf
  have h1 := getElem_replicate 2 (flatPoints temporal) j l hl
  rw [hq] at h1
  rw [Nat.zero_add, List.getElem?_append_left, h1]
  exact (List.getElem?_eq_some_iff.1 h1).1

theorem log_spatial (temporal spatial : List (ℚ × List ρ)) (j : ℕ) (q : ℚ × ρ) (hq : (flatPoints spatial)[j]? = some q)
    (l : ℕ) (hl : l < c.L) : (logOf c temporal spatial)[2 * (flatPoints temporal).length + c.L * j + l]? = some q := by
  unfold logOf
  have h1 := getElem_replicate c.L (flatPoints spatial) j l hl
  have h2 : ((flatPoints temporal).flatMap fun q => List.replicate 2 q).length = 2 * (flatPoints temporal).length := by
    simp [Nat.mul_comm]
  rw [List.getElem?_append_right (by omega), h2,
    show 2 * (flatPoints temporal).length + c.L * j + l - 2 * (flatPoints temporal).length = c.L * j + l by omega, h1, hq]

/-- the entries of the loaded dictionaries -/
theorem loaded_entries {V : Type} (e0 : ℚ) (temporal spatial : List (ℚ × List ρ)) (f : Format)
    (hf : formatOf c.imageFormat = some f) (hL : 3 ≤ c.L)
    (hsh : ∀ n e r, reread f (encode c.bits (S.grab n e r)) = Spec.shown f c.bits (S.grab n e r))
    (look : Kind → ℚ → ℚ → Option (List Str)) (red : List Img → V)
    (hlk : ∀ k e p fs, look k e p = some fs ↔
        ∃ s ∈ numbered 0 (plan c.L (seenPts S temporal) (seenPts S spatial)), key s.1 s.2.1 = (e, p) ∧
          s.2.2.length = cntOf c.L k ∧ fs = s.2.2.map (fileOf c)) (e1 p1 : ℚ) (v : V) :
    ((look .temporal e1 p1).map (fun fs => red (imagesAt (fload c.imageFormat (run S c e0 temporal spatial).files) [] fs))
        = some v ↔
      ∃ t ∈ shots (fun n e r => Spec.shown f c.bits (S.grab n e r)) 0 2 temporal,
        keyOf S t = (e1, p1) ∧ v = red t.2.2) ∧
    ((look .spatial e1 p1).map (fun fs => red (imagesAt (fload c.imageFormat (run S c e0 temporal spatial).files) [] fs))
        = some v ↔
      ∃ t ∈ shots (fun n e r => Spec.shown f c.bits (S.grab n e r)) (2 * (flatPoints temporal).length) c.L spatial,
        keyOf S t = (e1, p1) ∧ v = red t.2.2) := by
  have hat : ∀ j (hj : j < (flatPoints temporal).length),
      imagesAt (fload c.imageFormat (run S c e0 temporal spatial).files) []
        (((List.range 2).map (0 + 2 * j + ·)).map (fileOf c)) =
      (List.range 2).map fun l => Spec.shown f c.bits
        (S.grab (0 + 2 * j + l) (flatPoints temporal)[j].1 (flatPoints temporal)[j].2) := by
    intro j hj
    rw [imagesAt_shots S c e0 temporal spatial f hf _ (flatPoints temporal)[j].1 (flatPoints temporal)[j].2 hsh ?_]
    · rw [List.map_map]; rfl
    · intro n hn
      obtain ⟨l, hl2, rfl⟩ := List.mem_map.1 hn
      exact log_temporal c temporal spatial j _ (List.getElem?_eq_getElem hj) l (List.mem_range.1 hl2)
  have has : ∀ j (hj : j < (flatPoints spatial).length),
      imagesAt (fload c.imageFormat (run S c e0 temporal spatial).files) []
        (((List.range c.L).map (2 * (flatPoints temporal).length + c.L * j + ·)).map (fileOf c)) =
      (List.range c.L).map fun l => Spec.shown f c.bits
        (S.grab (2 * (flatPoints temporal).length + c.L * j + l) (flatPoints spatial)[j].1 (flatPoints spatial)[j].2) := by
    intro j hj
    rw [imagesAt_shots S c e0 temporal spatial f hf _ (flatPoints spatial)[j].1 (flatPoints spatial)[j].2 hsh ?_]
    · rw [List.map_map]; rfl
    · intro n hn
      obtain ⟨l, hl2, rfl⟩ := List.mem_map.1 hn
      exact log_spatial c temporal spatial j _ (List.getElem?_eq_getElem hj) l (List.mem_range.1 hl2)
  constructor
  · rw [Option.map_eq_some_iff]
    constructor
    · rintro ⟨fs, hfs, rfl⟩
      obtain ⟨s, hs', hk, hl', rfl⟩ := (hlk .temporal e1 p1 fs).1 hfs
      rw [numbered_plan, List.mem_append, List.mem_mapIdx, List.mem_mapIdx] at hs'
      rcases hs' with ⟨j, hj, rfl⟩ | ⟨j, hj, rfl⟩
      · exact ⟨_, List.mem_mapIdx.2 ⟨j, hj, rfl⟩, hk, by rw [hat j hj]⟩
      · simp [cntOf] at hl'; omega
    · rintro ⟨t, htm, hk, rfl⟩
      obtain ⟨j, hj, rfl⟩ := List.mem_mapIdx.1 htm
      refine ⟨_, (hlk .temporal e1 p1 _).2 ⟨((flatPoints temporal)[j].1, radiance S _ (flatPoints temporal)[j].2,
        (List.range 2).map (0 + 2 * j + ·)), ?_, hk, ?_, rfl⟩, ?_⟩
      · rw [numbered_plan]
        exact List.mem_append_left _ (List.mem_mapIdx.2 ⟨j, hj, rfl⟩)
      · simp [cntOf]
      · rw [hat j hj]
  · rw [Option.map_eq_some_iff]
    constructor
    · rintro ⟨fs, hfs, rfl⟩
      obtain ⟨s, hs', hk, hl', rfl⟩ := (hlk .spatial e1 p1 fs).1 hfs
      rw [numbered_plan, List.mem_append, List.mem_mapIdx, List.mem_mapIdx] at hs'
      rcases hs' with ⟨j, hj, rfl⟩ | ⟨j, hj, rfl⟩
      · simp [cntOf] at hl'; omega
      · exact ⟨_, List.mem_mapIdx.2 ⟨j, hj, rfl⟩, hk, by rw [has j hj]⟩
    · rintro ⟨t, htm, hk, rfl⟩
      obtain ⟨j, hj, rfl⟩ := List.mem_mapIdx.1 htm
      refine ⟨_, (hlk .spatial e1 p1 _).2 ⟨((flatPoints spatial)[j].1, radiance S _ (flatPoints spatial)[j].2,
        (List.range c.L).map (2 * (flatPoints temporal).length + c.L * j + ·)), ?_, hk, ?_, rfl⟩, ?_⟩
      · rw [numbered_plan]
        exact List.mem_append_right _ (List.mem_mapIdx.2 ⟨j, hj, rfl⟩)
      · simp [cntOf]
      · rw [has j hj]

/-- the files of a run can be read, and have the size of the sensor -/
theorem files_readable (e0 : ℚ) (temporal spatial : List (ℚ × List ρ))
    (h : GenOK c (seenPts S temporal) (seenPts S spatial)) (f : Format) (hf : formatOf c.imageFormat = some f)
    (hsh : ∀ n e r, reread f (encode c.bits (S.grab n e r)) = Spec.shown f c.bits (S.grab n e r))
    (himg : ∀ n e r, (S.grab n e r).h = c.height ∧ (S.grab n e r).w = c.width) :
    ∀ g ∈ (runTest c (seenPts S temporal) (seenPts S spatial)).saved,
      ∃ img, fload c.imageFormat (run S c e0 temporal spatial).files g = some (.ok img) ∧
        img.h = c.height ∧ img.w = c.width := by
  have hlen : (logOf c temporal spatial).length
      = 2 * (flat (seenPts S temporal)).length + c.L * (flat (seenPts S spatial)).length := by
    rw [flat_seenPts, flat_seenPts]
    simp [logOf, Nat.mul_comm]
  intro g hg
  rw [(C14_saved_files c _ _ h).1, ← hlen] at hg
  obtain ⟨n, hn, rfl⟩ := List.mem_map.1 hg
  have hn' : n < (logOf c temporal spatial).length := List.mem_range.1 hn
  have hq := files_get S c e0 temporal spatial n _ _ (List.getElem?_eq_getElem hn')
  refine ⟨Spec.shown f c.bits (S.grab n (logOf c temporal spatial)[n].1 (logOf c temporal spatial)[n].2), ?_,
    (shown_size _ _ _).1.trans (himg _ _ _).1, (shown_size _ _ _).2.trans (himg _ _ _).2⟩
  unfold fload
  rw [hf]
  simp only
  rw [hq]
  simp only [Option.map_some, hsh]
  rfl

/-- the values of the pairs of images of the temporal points -/
theorem pair_values (f : Format)
    (himg : ∀ n e r, (S.grab n e r).h = c.height ∧ (S.grab n e r).w = c.width ∧ Spec.Fits c.bits (S.grab n e r))
    (hh : 0 < c.height) (hw : 0 < c.width) (henv : (c.height : ℤ) * c.width * (2 ^ c.bits - 1) ^ 2 < 2 ^ 62)
    (temporal : List (ℚ × List ρ)) :
    ∀ t ∈ shots (fun n e r => Spec.shown f c.bits (S.grab n e r)) 0 2 temporal,
      (seriesPoint (c.height * c.width) (temporalEntry ℚ i64 t.2.2) : Fl ℚ × Fl ℚ)
        = (pairMean c.height c.width t.2.2, pairVar c.height c.width t.2.2) := by
  intro t htm
  obtain ⟨j, hj, rfl⟩ := List.mem_mapIdx.1 htm
  have h2 : ∀ g : ℕ → Img, (List.range 2).map g = [g 0, g 1] := fun g => rfl
  simp only [h2]
  generalize (flatPoints temporal)[j] = q
  have hr := fun n => shown_range f c.bits _ (himg n q.1 q.2).2.2
  have hs := fun n => shown_size f c.bits (S.grab n q.1 q.2)
  have hok : PairOK c.height c.width (2 ^ c.bits - 1) (Spec.shown f c.bits (S.grab (0 + 2 * j + 0) q.1 q.2))
      (Spec.shown f c.bits (S.grab (0 + 2 * j + 1) q.1 q.2)) :=
    ⟨Nat.mul_pos hh hw, (hs _).1.trans (himg _ _ _).1, (hs _).2.trans (himg _ _ _).2.1, (hs _).1.trans (himg _ _ _).1,
      (hs _).2.trans (himg _ _ _).2.1, fun i _ j _ => hr _ i j, fun i _ j _ => hr _ i j, henv⟩
  rw [C05_temporal_point ℚ _ _ _ _ _ hok]
  rfl

theorem evaluate_ok {wr : ℤ → ℤ} {fl : Str → Option (Except PyErr Img)} {path : Str} {ord : List ℚ → List ℚ}
    {images : Kind → Images ℚ} {px : Option ℕ} {pa : Option ℚ} {ix : Option ℤ} {r : Results.Res ℚ}
    (h : evaluate wr fl path ord images px pa ix = .ok r) :
    ∃ imgs, load wr fl path 0 ord images = .ok imgs ∧ ∃ dat, Data.make imgs px = .ok dat ∧ Results.make dat pa ix = r := by
  unfold evaluate at h
  cases hl : (load wr fl path 0 ord images : Except PyErr (Loaded ℚ ℚ)) with
  | error e => rw [hl] at h; cases h
  | ok imgs =>
    rw [hl] at h
    cases hm : Data.make imgs px with
    | error e => simp only [bind, Except.bind, hm] at h; cases h
    | ok dat =>
      simp only [bind, Except.bind, hm] at h
      cases h
      exact ⟨imgs, rfl, dat, hm, rfl⟩

theorem make_ok {imgs : Loaded ℚ ℚ} {px : Option ℕ} {dat : Data1288 ℚ} (hm : Data.make imgs px = .ok dat) :
    getTemporal (pixelsOf imgs px) imgs.temporal = .ok dat.temporal ∧
      getSpatial imgs.height imgs.width imgs.spatial = .ok dat.spatial := by
  unfold Data.make at hm
  dsimp only at hm
  split at hm
  · simp at hm
  rename_i tt htt
  split at hm
  · simp at hm
  rename_i ss hss
  simp only [Except.ok.injEq] at hm
  subst hm
  exact ⟨htt, hss⟩

/-- C85: the evaluation of a generated dataset.  For all settings, all operation points (each exposure with a dark and a
bright temporal point, one spatial bright point and its dark, no two points with the same rounded key) and whatever
the camera grabs: `Emva1288` of the descriptor raises no error.  The temporal data are, for the bright points by exposure
and photon count, the mean and the temporal variance of the two images taken there (and of the two dark images taken at
the same exposure time); the spatial data are those of the `L` images taken at the two spatial points. -/
theorem C85_evaluated (e0 : ℚ) (temporal spatial : List (ℚ × List ρ))
    (h : GenOK c (seenPts S temporal) (seenPts S spatial)) (hL : 3 ≤ c.L)
    (ht : KeysDistinct (seenPts S temporal)) (hs : KeysDistinct (seenPts S spatial))
    (hp : ∀ t ∈ temporal, (∃ r ∈ t.2, S.dark r = true) ∧ ∃ r ∈ t.2, S.dark r = false)
    (e : ℚ) (rb rd : ρ) (hsp : spatial = [(e, [rb, rd])]) (hrb : S.dark rb = false) (hrd : S.dark rd = true)
    (hw : 0 < c.width) (hh : 0 < c.height) (f : Format) (hf : formatOf c.imageFormat = some f) (hbits : c.bits ≤ 31)
    (himg : ∀ n e r, (S.grab n e r).h = c.height ∧ (S.grab n e r).w = c.width ∧ Spec.Fits c.bits (S.grab n e r))
    (henv : (c.height : ℤ) * c.width * (2 ^ c.bits - 1) ^ 2 < 2 ^ 62)
    (ord : List ℚ → List ℚ) (hord : ∀ l, (ord l).Perm l) :
    let out := run S c e0 temporal spatial
    let grab := fun n e r => Spec.shown f c.bits (S.grab n e r)
    let T := shots grab 0 2 temporal
    let n0 := 2 * (flatPoints temporal).length
    ∃ r, emva1288 i64 decFloat decInt (fload c.imageFormat out.files) ord (descriptorPath c) out.st.text = .ok r ∧
      (∃ ks, ks.Perm (T.filter fun t => !S.dark t.2.1) ∧
        ks.Pairwise (fun a b => (keyOf S a).1 < (keyOf S b).1 ∨
          ((keyOf S a).1 = (keyOf S b).1 ∧ (keyOf S a).2 < (keyOf S b).2)) ∧
        r.temporal.u_p = ks.map (fun t => (keyOf S t).2) ∧
        r.temporal.u_y = ks.map (fun t => pairMean c.height c.width t.2.2) ∧
        r.temporal.s2_y = ks.map (fun t => pairVar c.height c.width t.2.2) ∧
        ((∀ t ∈ T, ∀ t' ∈ T, (keyOf S t).1 = (keyOf S t').1) ∨
            (∀ t ∈ T, ∀ t' ∈ T, (keyOf S t).1 = (keyOf S t').1 → S.dark t.2.1 = false → S.dark t'.2.1 = false → t = t') →
          r.temporal.texp = ks.map (fun t => (keyOf S t).1) ∧
          ∃ ds, List.Forall₂ (fun t d => d ∈ T ∧ (keyOf S d).1 = (keyOf S t).1 ∧ S.dark d.2.1 = true) ks ds ∧
            r.temporal.u_ydark = ds.map (fun t => pairMean c.height c.width t.2.2) ∧
            r.temporal.s2_ydark = ds.map (fun t => pairVar c.height c.width t.2.2))) ∧
      r.spatial.texp = (key e none).1 ∧ r.spatial.u_p = roundTo 3 (S.photons e rb) ∧
      getSpatialData c.height c.width (getIntImgs ℚ i64 ((List.range c.L).map fun l => grab (n0 + l) e rb))
        = .ok r.spatial.bright ∧
      getSpatialData c.height c.width (getIntImgs ℚ i64 ((List.range c.L).map fun l => grab (n0 + c.L + l) e rd))
        = .ok r.spatial.dark := by
  intro out grab T n0
  have hsh : ∀ n e r, reread f (encode c.bits (S.grab n e r)) = Spec.shown f c.bits (S.grab n e r) := fun n e r =>
    C85_file f c.bits hbits _ (himg n e r).2.2
  have hT0 : (seenPts S spatial) = [(e, [some (S.photons e rb), none])] := by
    subst hsp
    simp [seenPts, radiance, hrb, hrd]
  have hpp : PairedPoints (seenPts S temporal) := by
    intro t htm
    obtain ⟨t0, ht0, rfl⟩ := List.mem_map.1 htm
    obtain ⟨⟨r1, hr1, hd1⟩, r2, hr2, hd2⟩ := hp t0 ht0
    exact ⟨List.mem_map.2 ⟨r1, hr1, by simp [radiance, hd1]⟩, _, List.mem_map.2 ⟨r2, hr2, by simp [radiance, hd2]; rfl⟩⟩
  have hfiles := files_readable S c e0 temporal spatial h f hf hsh fun n e r => ⟨(himg n e r).1, (himg n e r).2.1⟩
  obtain ⟨r, hr, -, -, -, hs1, hs2⟩ := C63_generated_dataset c _ _ h hL ht hs hpp e _ hT0 hw hh (fload c.imageFormat out.files) hfiles i64 ord hord
  have htext : out.st = runTest c (seenPts S temporal) (seenPts S spatial) := run_st S c e0 temporal spatial
  rw [← htext] at hr
  refine ⟨r, hr, ?_⟩
  obtain ⟨d, hd, -, -, hlk'⟩ := C13_round_trip c _ _ h hL ht hs
  have hlk : ∀ k e p fs, d.lookup k e p = some fs ↔
        ∃ s ∈ numbered 0 (plan c.L (seenPts S temporal) (seenPts S spatial)), key s.1 s.2.1 = (e, p) ∧
          s.2.2.length = cntOf c.L k ∧ fs = s.2.2.map (fileOf c) := by
    intro k; cases k
    · exact hlk' .temporal
    · exact hlk' .spatial
  clear hlk'
  obtain ⟨hall, -⟩ := C14_parsed_files c _ _ h hL ht hs d hd
  rw [← htext] at hd
  unfold emva1288 at hr
  simp only [bind, Except.bind, hd] at hr
  have hwf : ∀ k, WF2 (d.images k) := by
    obtain ⟨ss, -, -, hm⟩ := C07_sound _ _ _ _ _ _ _ hd
    exact hm.wf
  obtain ⟨imgs, hl, dat, hm, rfl⟩ := evaluate_ok hr
  clear hr hd
  obtain ⟨c1, c2, c3, c4, c5, c6, c7⟩ := C15_content i64 (fload c.imageFormat out.files) [] 0 ord hord d.images hwf imgs hl
  have hLo := (C15_acceptance (F := ℚ) i64 (fload c.imageFormat out.files) [] 0 ord hord d.images hwf).1 ⟨imgs, hl⟩
  have hT : ∀ e1 p1 v, get2 imgs.temporal e1 p1 = some v ↔
      ∃ t ∈ T, keyOf S t = (e1, p1) ∧ v = temporalEntry ℚ i64 t.2.2 := by
    intro e1 p1 v
    rw [c1]
    exact (loaded_entries S c e0 temporal spatial f hf hL hsh d.lookup (temporalEntry ℚ i64) hlk e1 p1 v).1
  have hX : ∀ e1 p1 v, get2 imgs.spatial e1 p1 = some v ↔
      ∃ t ∈ shots grab n0 c.L spatial, keyOf S t = (e1, p1) ∧ v = getIntImgs ℚ i64 t.2.2 := by
    intro e1 p1 v
    rw [c2]
    exact (loaded_entries S c e0 temporal spatial f hf hL hsh d.lookup (getIntImgs ℚ i64) hlk e1 p1 v).2
  have hsize : imgs.height = c.height ∧ imgs.width = c.width := by
    obtain ⟨g, hg⟩ := hLo.nonempty
    have hgs : g ∈ (runTest c (seenPts S temporal) (seenPts S spatial)).saved := by
      obtain ⟨k, e1, p1, fs, hfs, hgm⟩ := hg
      exact (hall g).2 ⟨k, e1, p1, fs, hfs, hgm⟩
    obtain ⟨img, hi, a1, a2⟩ := hfiles g hgs
    have hj : join1 [] g = g := by unfold join1; split <;> simp
    obtain ⟨b1, b2⟩ := c5 g img hg (by simp only [imageAt, hj]; exact (by rw [hi]))
    exact ⟨b1.symm.trans a1, b2.symm.trans a2⟩
  have hinT : ∀ t ∈ T, (t.1, radiance S t.1 t.2.1) ∈ flat (seenPts S temporal) := by
    intro t htm
    obtain ⟨j, hj, rfl⟩ := List.mem_mapIdx.1 htm
    rw [flat_seenPts]
    exact List.mem_map.2 ⟨_, List.getElem_mem hj, rfl⟩
  have hdark : ∀ t ∈ T, S.dark t.2.1 = true ↔ (keyOf S t).2 = 0 := by
    intro t htm
    have hm1 := hinT t htm
    cases hd1 : S.dark t.2.1 with
    | true => simp [keyOf, key, radiance, hd1]
    | false =>
      simp only [radiance, hd1, Bool.false_eq_true, if_false] at hm1
      have := bright_key_ne ht hpp hm1
      simpa [keyOf, radiance, hd1] using this
  have hnn : NonNegPhotons imgs.temporal := by
    intro e1 p1 v hv
    obtain ⟨t, htm, hk, -⟩ := (hT _ _ _).1 hv
    have hn := h.nonneg _ (List.mem_append_left _ (hinT t htm))
    rw [show p1 = (keyOf S t).2 by rw [hk]]
    unfold keyOf key
    cases hq2 : radiance S t.1 t.2.1 with
    | none => exact le_rfl
    | some x => exact roundTo_nonneg 3 (hn.2 x hq2)
  have hpair : ∀ t ∈ T, seriesPoint (pixelsOf imgs none) (temporalEntry ℚ i64 t.2.2)
      = (pairMean c.height c.width t.2.2, pairVar c.height c.width t.2.2) := by
    have hpx : pixelsOf imgs none = c.height * c.width := by simp [pixelsOf, mul_comm, hsize]
    rw [hpx]
    exact pair_values S c f himg hh hw henv temporal
  obtain ⟨htt, hss⟩ := make_ok hm
  refine ⟨?_, hs1, hs2, ?_⟩
  · exact temporal_points imgs.temporal c6 T (keyOf S) (fun t => temporalEntry ℚ i64 t.2.2) (fun t => S.dark t.2.1)
      _ (fun t => (pairMean c.height c.width t.2.2, pairVar c.height c.width t.2.2)) hT hdark hnn
      (by rw [map_shots]; exact ht) hpair _ htt
  · have hXl : shots grab n0 c.L spatial = [(e, rb, (List.range c.L).map fun l => grab (n0 + l) e rb),
        (e, rd, (List.range c.L).map fun l => grab (n0 + c.L + l) e rd)] := by
      subst hsp
      simp [shots, flatPoints]
    have hkb : keyOf S (e, rb, (List.range c.L).map fun l => grab (n0 + l) e rb)
        = ((key e none).1, roundTo 3 (S.photons e rb)) := by
      simp [keyOf, radiance, hrb, key]
    have hkd : keyOf S (e, rd, (List.range c.L).map fun l => grab (n0 + c.L + l) e rd) = ((key e none).1, 0) := by
      simp [keyOf, radiance, hrd, key]
    have hP : 0 < roundTo 3 (S.photons e rb) := by
      have h1 : (e, some (S.photons e rb)) ∈ flat (seenPts S spatial) := by rw [hT0]; simp [flat]
      refine lt_of_le_of_ne (roundTo_nonneg 3 ((h.nonneg _ (List.mem_append_right _ h1)).2 _ rfl)) fun h0 => ?_
      refine bright_key_ne hs ?_ h1 h0.symm
      rw [hT0]
      intro t ht
      rw [List.mem_singleton.1 ht]
      exact ⟨by simp, S.photons e rb, by simp⟩
    rw [hXl] at hX
    have hX' : ∀ e1 p1 v, get2 imgs.spatial e1 p1 = some v ↔
        ((key e none).1 = e1 ∧ roundTo 3 (S.photons e rb) = p1 ∧
          v = getIntImgs ℚ i64 ((List.range c.L).map fun l => grab (n0 + l) e rb)) ∨
        ((key e none).1 = e1 ∧ 0 = p1 ∧
          v = getIntImgs ℚ i64 ((List.range c.L).map fun l => grab (n0 + c.L + l) e rd)) := by
      intro e1 p1 v
      rw [hX]
      simp only [List.mem_cons, List.not_mem_nil, or_false, exists_eq_or_imp, exists_eq_left, hkb, hkd, Prod.mk.injEq, and_assoc]
    have hO : OnePair imgs.spatial (key e none).1 (roundTo 3 (S.photons e rb))
        (getIntImgs ℚ i64 ((List.range c.L).map fun l => grab (n0 + c.L + l) e rd))
        (getIntImgs ℚ i64 ((List.range c.L).map fun l => grab (n0 + l) e rb)) := by
      refine ⟨hP.ne', ?_, fun p1 v => ?_⟩
      · have hmem : ∀ x, x ∈ Dict.keys imgs.spatial ↔ x = (key e none).1 := by
          intro x
          constructor
          · intro hx
            obtain ⟨i, hi⟩ := (Dict.has_iff_exists _ _).1 ((Dict.has_iff _ _).2 ((c4 x).1 hx))
            obtain ⟨fs, hfs⟩ := hLo.dark .spatial x i hi
            have : get2 imgs.spatial x 0 = some (getIntImgs ℚ i64 (imagesAt (fload c.imageFormat out.files) [] fs)) := by
              rw [c2]
              simp [get2, hi, hfs]
            rcases (hX' _ _ _).1 this with ⟨h1, -⟩ | ⟨h1, -⟩ <;> exact h1.symm
          · rintro rfl
            have := (hX' _ _ _).2 (.inr ⟨rfl, rfl, rfl⟩)
            unfold get2 at this
            rw [Option.bind_eq_some_iff] at this
            obtain ⟨i, hi, -⟩ := this
            exact Dict.mem_keys_of_get? hi
        have hperm : (Dict.keys imgs.spatial).Perm [(key e none).1] :=
          (List.perm_ext_iff_of_nodup c7.1 (by simp)).2 fun x => by simp [hmem]
        exact List.perm_singleton.1 hperm
      · rw [hX']
        constructor
        · rintro (⟨-, h2, h3⟩ | ⟨-, h2, h3⟩)
          · exact .inr ⟨h2.symm, h3⟩
          · exact .inl ⟨h2.symm, h3⟩
        · rintro (⟨h2, h3⟩ | ⟨h2, h3⟩)
          · exact .inr ⟨rfl, h2.symm, h3⟩
          · exact .inl ⟨rfl, h2.symm, h3⟩
    have hLe : ∀ e1 p1 v, get2 imgs.spatial e1 p1 = some v → 1 ≤ v.L := by
      intro e1 p1 v hv
      rcases (hX' _ _ _).1 hv with ⟨-, -, rfl⟩ | ⟨-, -, rfl⟩
      · show 1 ≤ ((List.range c.L).map _).length
        simp; omega
      · show 1 ≤ ((List.range c.L).map _).length
        simp; omega
    obtain ⟨s, sd, sb, g1, -, g3, g4, g5, g6, -⟩ := (C19_validation imgs.height imgs.width (by rw [hsize.1]; exact hh)
      (by rw [hsize.2]; exact hw) imgs.spatial c7 hLe).1 _ _ _ _ hO
    obtain rfl : s = dat.spatial := Except.ok.inj (g1.symm.trans hss)
    rw [hsize.1, hsize.2] at g3 g4
    show _ = Except.ok dat.spatial.bright ∧ _ = Except.ok dat.spatial.dark
    rw [g5, (g6 hP).2]
    exact ⟨g4, g3⟩

/-- C85: the images of the modelled camera meet the hypothesis of `C85_evaluated`, at every exposure time and for all
outcomes of the draws. -/
theorem C85_camera (cam : Cam.Camera ℚ) (noise : ℕ → ℚ → ρ → Cam.Noise ℚ) (hb : cam.bitDepth ≤ 31) (n : ℕ) (e : ℚ) (r : ρ) :
    let img := Cam.grabImg (cam.setExposure e) (noise n e r)
    img.h = cam.height ∧ img.w = cam.width ∧ Spec.Fits cam.bitDepth img := by
  obtain ⟨h1, h2, h3⟩ := C49_range (cam.setExposure e) (noise n e r) (le_trans hb (by norm_num))
  refine ⟨h1, h2, fun i j => ?_⟩
  obtain ⟨a1, a2, -⟩ := h3 i j
  exact ⟨a1, Int.lt_of_le_sub_one a2⟩

end

/-- C85, above 16 bits: for every bit depth from 17 to 31 a constant image at the largest grey value is a possible image, and
its png file shows another one; the mean of a pair of such images is evaluated as 65535. -/
theorem C85_clipped (bits : ℕ) (hb : 16 < bits) (hb' : bits ≤ 31) (h w : ℕ) (hh : 0 < h) (hw : 0 < w) :
    let img : Img := ⟨h, w, fun _ _ => 2 ^ bits - 1⟩
    Spec.Fits bits img ∧ reread .tiff (encode bits img) = img ∧
      reread .png (encode bits img) = ⟨h, w, fun _ _ => 65535⟩ ∧ (65535 : ℤ) < 2 ^ bits - 1 ∧
      (pairMean h w [img, img] : Fl ℚ) = .fin (2 ^ bits - 1) ∧
      (pairMean h w [reread .png (encode bits img), reread .png (encode bits img)] : Fl ℚ) = .fin 65535 := by
  intro img
  have hlt : (65535 : ℤ) < 2 ^ bits - 1 := by
    have : (2 : ℤ) ^ 17 ≤ 2 ^ bits := pow_le_pow_right₀ (by norm_num) hb
    norm_num at this
    omega
  have hfit : Spec.Fits bits img := by
    intro i j
    show 0 ≤ (2 : ℤ) ^ bits - 1 ∧ (2 : ℤ) ^ bits - 1 < 2 ^ bits
    omega
  have hpng : reread .png (encode bits img) = ⟨h, w, fun _ _ => 65535⟩ := by
    rw [C85_file .png bits hb' img hfit]
    unfold Spec.shown
    rw [if_pos ⟨rfl, hb⟩]
    show (⟨h, w, fun _ _ => min (2 ^ bits - 1) 65535⟩ : Img) = _
    rw [min_eq_right hlt.le]
  have hmean : ∀ v : ℚ, Spec.imgMean h w (fun _ _ => v) = v := by
    intro v
    have h1 : (h : ℚ) ≠ 0 := by exact_mod_cast hh.ne'
    have h2 : (w : ℚ) ≠ 0 := by exact_mod_cast hw.ne'
    unfold Spec.imgMean
    simp
    field_simp
  refine ⟨hfit, ?_, hpng, hlt, ?_, ?_⟩
  · rw [C85_file .tiff bits hb' img hfit]
    unfold Spec.shown
    rw [if_neg (by simp)]
  · show Fl.fin _ = _
    simp only [img]
    push_cast
    rw [hmean]
    congr 1
    ring
  · rw [hpng]
    show Fl.fin _ = _
    simp only
    push_cast
    rw [hmean]
    norm_num

end Emva
