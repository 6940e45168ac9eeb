import Verif.Py.Err
import Verif.Model.Report

/-!
Model of `Plotting1288` (process/plotting.py lines 832-873).
-/
set_option autoImplicit false
namespace Emva
namespace Plotter
open Py Report

/-- A test object has an attribute `id`, or not (`none`).  The value is a number (the ones used for the
report ids and `id(test)` are integers; the plots format it with `%d`); `0` is false.
process/plotting.py lines 849-850. -/
abbrev Ids := ℕ → Option ℕ

/-- What the code outside of the plotter does: `addr t` is `id(t)`, `make cls` the outcome of creating the
figure and the plot, `draw cls t` of `plot.plot(t)`, `finish cls` of `plot.rearrange()` and setting the
title. process/plotting.py lines 850, 867-873. -/
structure World where
  addr : ℕ → ℕ
  make : Str → Except PyErr Unit
  draw : Str → ℕ → Except PyErr Unit
  finish : Str → Except PyErr Unit

/-- `if not getattr(test, 'id', False): test.id = id(test)`, plotting.py lines 849-850. -/
def ensureId (w : World) (ids : Ids) (t : ℕ) : Ids :=
  if (ids t).getD 0 = 0 then fun x => if x = t then some (w.addr t) else ids x else ids

/-- `Plotting1288(*tests)`, plotting.py lines 839-851: the ids, the outcome (`self.tests`).  The append is
after the loop, where `test` is the last test, or unbound when there is none. -/
def new (w : World) (tests : List ℕ) (ids : Ids) : Ids × Except PyErr (List ℕ) :=
  let ids := tests.foldl (ensureId w) ids
  match tests.getLast? with
  | none => (ids, .error .unboundLocalError)
  | some t => (ids, .ok [t])

/-- `for test in self.tests: plot.plot(test)`, plotting.py lines 869-870: the drawn pairs. -/
def drawTests (w : World) (cls : Str) : List ℕ → List (Str × ℕ) × Except PyErr Unit
  | [] => ([], .ok ())
  | t :: l =>
    match w.draw cls t with
    | .error e => ([], .error e)
    | .ok _ =>
      let (d, e) := drawTests w cls l
      ((cls, t) :: d, e)

/-- The loop of `plot`, plotting.py lines 866-872. -/
def plotLoop (w : World) (tests : List ℕ) : List Str → List (Str × ℕ) × Except PyErr Unit
  | [] => ([], .ok ())
  | cls :: l =>
    match w.make cls with
    | .error e => ([], .error e)
    | .ok _ =>
      match drawTests w cls tests with
      | (d, .error e) => (d, .error e)
      | (d, .ok _) =>
        match w.finish cls with
        | .error e => (d, .error e)
        | .ok _ =>
          let (d', e) := plotLoop w tests l
          (d ++ d', e)

/-- `plot(*plots)`, plotting.py lines 853-873. -/
def plot (w : World) (tests : List ℕ) (plots : List Str) : List (Str × ℕ) × Except PyErr Unit :=
  plotLoop w tests (if plots.isEmpty then plotClasses else plots)

end Plotter
end Emva
