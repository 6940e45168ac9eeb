import Verif.Spec.Written

/-!
The text and the truth value of a template value are those of the specification.
-/
set_option autoImplicit false
namespace Emva
namespace SheetSpec
open Jinja

theorem text_eq (t : Texts) (v : Val) : v.text t = written t v := by
  cases v <;> first | rfl | exact (by decide +kernel)

theorem text_fun (t : Texts) : Val.text t = written t := funext (text_eq t)

theorem truthy_eq (v : Val) : v.truthy = given v := by
  cases v with
  | float x => cases x <;> simp [Val.truthy, given, Fl.eqb]
  | str s => cases s <;> simp [Val.truthy, given]
  | list s => cases s <;> simp [Val.truthy, given]
  | dict s => cases s <;> simp [Val.truthy, given]
  | _ => rfl

end SheetSpec
end Emva
