import Verif.Model.GetIntImgs

/-!
Model of `Data1288._get_temporal_data` (src/emva1288/process/data.py lines 157-188).
-/
set_option autoImplicit false
namespace Emva
variable {F : Type*} [Field F] [LinearOrder F]

/-- The dictionary returned by `_get_temporal_data`. process/data.py line 188. -/
structure TemporalStats (F : Type*) where
  mean : Fl F
  var : Fl F
  dmean : Fl F

/-- `Data1288._get_temporal_data(d)`, data.py lines 185-188; `pixels` is `self.pixels`. -/
def getTemporalData (pixels : ℕ) (d : TemporalEntry F) : TemporalStats F :=
  { mean := .fin (d.sum : F) / (.fin 2 * .fin (pixels : F))
    var := .fin (d.pvar : F) / (.fin 4 * .fin (pixels : F))
    dmean := Fl.sq d.dmean / .fin 2 }

/-- The two numbers `_get_temporal` stores for one series: mean and `var - dmean`
(data.py lines 122-124 for the dark, 129-131 for a bright series). -/
def seriesPoint (pixels : ℕ) (d : TemporalEntry F) : Fl F × Fl F :=
  let s := getTemporalData pixels d
  (s.mean, s.var - s.dmean)

end Emva
