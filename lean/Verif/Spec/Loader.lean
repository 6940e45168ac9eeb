import Verif.Model.Parser
import Verif.Py.Img

/-!
What loading must achieve, stated on the file system and the images dictionary only.
-/
set_option autoImplicit false
namespace Emva.Spec
open Emva Py

variable {K : Type} [DecidableEq K] {V W : Type*}

/-- two-level lookup `d[e][p]` -/
def get2 (d : Dict K (Dict K V)) (e p : K) : Option V := (Dict.get? d e).bind fun i => Dict.get? i p

/-- the readable image at a path -/
def imageAt (fload : Str → Option (Except PyErr Img)) (path f : Str) : Option Img :=
  match fload (join1 path f) with
  | some (.ok img) => some img
  | _ => none

/-- the images of a list of files -/
def imagesAt (fload : Str → Option (Except PyErr Img)) (path : Str) (fs : List Str) : List Img :=
  fs.filterMap (imageAt fload path)

/-- a file is named somewhere in the dictionary -/
def Named (images : Parser.Kind → Parser.Images K) (f : Str) : Prop :=
  ∃ k e p fs, get2 (images k) e p = some fs ∧ f ∈ fs

/-- The documented requirements on an images dictionary. -/
structure Loadable (fload : Str → Option (Except PyErr Img)) (path : Str) (zero : K)
    (images : Parser.Kind → Parser.Images K) : Prop where
  /-- every exposure has a dark entry -/
  dark : ∀ k e i, Dict.get? (images k) e = some i → ∃ fs, Dict.get? i zero = some fs
  /-- and at least one other -/
  bright : ∀ k e i, Dict.get? (images k) e = some i → ∃ p fs, p ≠ zero ∧ Dict.get? i p = some fs
  /-- every file exists and is readable -/
  readable : ∀ f, Named images f → ∃ img, fload (join1 path f) = some (.ok img)
  /-- all images have the same shape -/
  shape : ∀ f g a b, Named images f → Named images g → imageAt fload path f = some a →
    imageAt fload path g = some b → a.shape = b.shape
  /-- there is at least one image -/
  nonempty : ∃ f, Named images f

/-- Dictionaries of dictionaries as python builds them: distinct keys on both levels. -/
def WF2 (d : Dict K (Dict K V)) : Prop :=
  Dict.WF d ∧ ∀ e i, Dict.get? d e = some i → Dict.WF i

end Emva.Spec
