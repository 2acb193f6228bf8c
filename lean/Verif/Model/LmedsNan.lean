import Verif.Model.Lmeds
import Verif.Model.Ge

/-!
# The distances of `Lmeds` when some of them are NaN
-/

namespace OpenGV.Sac

/-- The keys that `std::sort` gets in Lmeds.hpp lines 110-117, for distances that may be NaN (`none`): the
clipping compares with 0, which is false for NaN, and the product is NaN. The comparison is `nanLt`. -/
noncomputable def lmedsKeys (d : List (Option ℝ)) : List (Option ℝ) := d.map (Option.map clipSquare)

end OpenGV.Sac
