import Verif.Proof.FivePointTerms
import Verif.Model.NisterTable

/-!
# The tables of `composeA` of fivept_nister are the expanded constraints

Equality of the normal forms of symbolic sums; with `cubic_expansion` this holds for all values of the
variables.
-/

namespace OpenGV

theorem nisterRow0_norm : nisterRow0.map normTerms =
    nisterKs.map fun k => normTerms (expandTerms 1 k detTerms) := by
  decide +kernel

theorem nisterRow1_norm : nisterRow1.map normTerms =
    nisterKs.map fun k => normTerms (expandTerms 1 k (traceTerms 0 0)) := by
  decide +kernel

theorem nisterRow2_norm : nisterRow2.map normTerms =
    nisterKs.map fun k => normTerms (expandTerms 1 k (traceTerms 1 0)) := by
  decide +kernel

theorem nisterRow3_norm : nisterRow3.map normTerms =
    nisterKs.map fun k => normTerms (expandTerms 1 k (traceTerms 2 0)) := by
  decide +kernel

theorem nisterRow4_norm : nisterRow4.map normTerms =
    nisterKs.map fun k => normTerms (expandTerms 1 k (traceTerms 0 1)) := by
  decide +kernel

theorem nisterRow5_norm : nisterRow5.map normTerms =
    nisterKs.map fun k => normTerms (expandTerms 1 k (traceTerms 1 1)) := by
  decide +kernel

theorem nisterRow6_norm : nisterRow6.map normTerms =
    nisterKs.map fun k => normTerms (expandTerms 1 k (traceTerms 2 1)) := by
  decide +kernel

theorem nisterRow7_norm : nisterRow7.map normTerms =
    nisterKs.map fun k => normTerms (expandTerms 1 k (traceTerms 0 2)) := by
  decide +kernel

theorem nisterRow8_norm : nisterRow8.map normTerms =
    nisterKs.map fun k => normTerms (expandTerms 1 k (traceTerms 1 2)) := by
  decide +kernel

theorem nisterRow9_norm : nisterRow9.map normTerms =
    nisterKs.map fun k => normTerms (expandTerms 1 k (traceTerms 2 2)) := by
  decide +kernel

end OpenGV
