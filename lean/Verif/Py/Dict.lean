import Mathlib.Data.List.Basic
import Mathlib.Data.List.Nodup

/-!
Python `dict` / `OrderedDict`: association lists in insertion order.  `set` replaces the value of
an existing key in place and appends a new key at the end, exactly as a python dictionary does.
Keys are compared with `==`, so the key type needs decidable equality (float keys: NaN, which is
unequal to itself, is not a key of any modelled dictionary).
-/
set_option autoImplicit false
namespace Emva

/-- A python dictionary, e.g. process/parser.py lines 51-52. -/
abbrev Dict (K V : Type*) := List (K × V)

set_option linter.unusedSectionVars false
namespace Dict
variable {K V : Type*} [DecidableEq K]

/-- `d.get(k)` / the value of `d[k]` (`none` is the `KeyError` case).
Used for process/data.py lines 122, 129. -/
def get? : Dict K V → K → Option V
  | [], _ => none
  | (k', v) :: d, k => if k' = k then some v else get? d k

/-- `k in d`. Used for process/parser.py line 121. -/
def has (d : Dict K V) (k : K) : Bool := (get? d k).isSome

/-- `d[k] = v`. Used for process/parser.py line 127. -/
def set : Dict K V → K → V → Dict K V
  | [], k, v => [(k, v)]
  | (k', v') :: d, k, v => if k' = k then (k', v) :: d else (k', v') :: set d k v

/-- `d.setdefault(k, v)` (for its effect on `d`). Used for process/parser.py line 116. -/
def setdefault (d : Dict K V) (k : K) (v : V) : Dict K V := if has d k then d else set d k v

/-- `d.update(e)`. Used for report/report.py lines 40, 95, 121. -/
def update (d e : Dict K V) : Dict K V := e.foldl (fun d kv => set d kv.1 kv.2) d

/-- `list(d.keys())`. Used for process/loader.py lines 76, 81. -/
def keys (d : Dict K V) : List K := d.map (·.1)

/-- Every key occurs once: the invariant of a python dictionary.
Used for process/parser.py lines 51-52. -/
def WF (d : Dict K V) : Prop := (keys d).Nodup

@[simp] theorem get?_nil (k : K) : get? ([] : Dict K V) k = none := rfl

theorem get?_set (d : Dict K V) (k k' : K) (v : V) :
    get? (set d k v) k' = if k = k' then some v else get? d k' := by
  induction d with
  | nil => simp [set, get?]
  | cons p d ih =>
    obtain ⟨a, b⟩ := p
    by_cases h : a = k
    · subst h; simp only [set, if_true, get?]; split <;> simp_all
    · simp only [set, if_neg h, get?, ih]
      by_cases h' : a = k'
      · subst h'; simp [Ne.symm h]
      · simp [h']

@[simp] theorem get?_set_self (d : Dict K V) (k : K) (v : V) : get? (set d k v) k = some v := by
  simp [get?_set]

theorem get?_set_ne (d : Dict K V) {k k' : K} (v : V) (h : k ≠ k') :
    get? (set d k v) k' = get? d k' := by
  simp [get?_set, h]

theorem get?_eq_none_iff (d : Dict K V) (k : K) : get? d k = none ↔ k ∉ keys d := by
  induction d with
  | nil => simp [keys]
  | cons p d ih =>
    obtain ⟨a, b⟩ := p
    simp only [get?, keys, List.map_cons, List.mem_cons, not_or]
    by_cases h : a = k
    · simp [h]
    · simp only [h, if_false, ih, keys]
      simp [Ne.symm h]

theorem has_iff (d : Dict K V) (k : K) : has d k = true ↔ k ∈ keys d := by
  unfold has
  rw [← not_iff_not, ← get?_eq_none_iff]
  cases get? d k <;> simp

theorem has_iff_exists (d : Dict K V) (k : K) : has d k = true ↔ ∃ v, get? d k = some v := by
  unfold has; cases get? d k <;> simp

theorem keys_set (d : Dict K V) (k : K) (v : V) :
    keys (set d k v) = if k ∈ keys d then keys d else keys d ++ [k] := by
  induction d with
  | nil => simp [set, keys]
  | cons p d ih =>
    obtain ⟨a, b⟩ := p
    by_cases h : a = k
    · simp [set, h, keys]
    · simp only [set, if_neg h]
      simp only [keys, List.map_cons, List.mem_cons, Ne.symm h, false_or] at ih ⊢
      rw [ih]; split <;> simp_all

theorem WF.set {d : Dict K V} (h : WF d) (k : K) (v : V) : WF (set d k v) := by
  unfold WF at *
  rw [keys_set]
  split
  · exact h
  · rename_i hk
    rw [List.nodup_append]
    refine ⟨h, by simp, ?_⟩
    intro a ha b hb
    simp at hb; subst hb
    rintro rfl; exact hk ha

theorem WF.setdefault {d : Dict K V} (h : WF d) (k : K) (v : V) : WF (setdefault d k v) := by
  unfold Dict.setdefault; split
  · exact h
  · exact h.set k v

theorem get?_setdefault (d : Dict K V) (k k' : K) (v : V) :
    get? (setdefault d k v) k' =
      if k = k' then some ((get? d k).getD v) else get? d k' := by
  unfold setdefault
  by_cases hk : has d k = true
  · rw [if_pos hk]
    rw [has_iff_exists] at hk
    obtain ⟨w, hw⟩ := hk
    split
    · rename_i h; subst h; simp [hw]
    · rfl
  · rw [if_neg hk, get?_set]
    have : get? d k = none := by
      unfold has at hk; cases h : get? d k <;> simp_all
    split <;> simp_all

theorem get?_mem {d : Dict K V} {k : K} {v : V} (h : get? d k = some v) : (k, v) ∈ d := by
  induction d with
  | nil => simp at h
  | cons p d ih =>
    obtain ⟨a, b⟩ := p
    simp only [get?] at h
    split at h
    · rename_i hk; simp_all
    · exact List.mem_cons_of_mem _ (ih h)

theorem get?_of_mem {d : Dict K V} (hd : WF d) {k : K} {v : V} (h : (k, v) ∈ d) :
    get? d k = some v := by
  induction d with
  | nil => simp at h
  | cons p d ih =>
    obtain ⟨a, b⟩ := p
    simp only [WF, keys, List.map_cons, List.nodup_cons] at hd
    simp only [get?]
    rcases List.mem_cons.1 h with h | h
    · cases h; simp
    · have : a ≠ k := by
        rintro rfl
        exact hd.1 (List.mem_map.2 ⟨_, h, rfl⟩)
      rw [if_neg this]; exact ih hd.2 h

theorem get?_iff_mem {d : Dict K V} (hd : WF d) (k : K) (v : V) :
    get? d k = some v ↔ (k, v) ∈ d := ⟨get?_mem, get?_of_mem hd⟩

theorem mem_keys_of_get? {d : Dict K V} {k : K} {v : V} (h : get? d k = some v) : k ∈ keys d :=
  List.mem_map.2 ⟨_, get?_mem h, rfl⟩

theorem wf_nil : WF ([] : Dict K V) := by simp [WF, keys]

end Dict
end Emva
