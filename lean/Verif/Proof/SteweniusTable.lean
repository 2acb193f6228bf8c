import Verif.Proof.FivePointTerms
import Verif.Model.SteweniusTable

/-!
# The tables of `composeA` of fivept_stewenius are the expanded constraints

Equality of the normal forms of symbolic sums; with `cubic_expansion` this holds for all values of the
variables.
-/

namespace OpenGV

theorem steweniusRow0_norm : steweniusRow0.map normTerms =
    steweniusKs.map fun k => normTerms (expandTerms 1 k (traceTerms 0 0)) := by
  decide +kernel

theorem steweniusRow1_norm : steweniusRow1.map normTerms =
    steweniusKs.map fun k => normTerms (expandTerms 1 k (traceTerms 1 0)) := by
  decide +kernel

theorem steweniusRow2_norm : steweniusRow2.map normTerms =
    steweniusKs.map fun k => normTerms (expandTerms 1 k (traceTerms 2 0)) := by
  decide +kernel

theorem steweniusRow3_norm : steweniusRow3.map normTerms =
    steweniusKs.map fun k => normTerms (expandTerms 1 k (traceTerms 0 1)) := by
  decide +kernel

theorem steweniusRow4_norm : steweniusRow4.map normTerms =
    steweniusKs.map fun k => normTerms (expandTerms 1 k (traceTerms 1 1)) := by
  decide +kernel

theorem steweniusRow5_norm : steweniusRow5.map normTerms =
    steweniusKs.map fun k => normTerms (expandTerms 1 k (traceTerms 2 1)) := by
  decide +kernel

theorem steweniusRow6_norm : steweniusRow6.map normTerms =
    steweniusKs.map fun k => normTerms (expandTerms 1 k (traceTerms 0 2)) := by
  decide +kernel

theorem steweniusRow7_norm : steweniusRow7.map normTerms =
    steweniusKs.map fun k => normTerms (expandTerms 1 k (traceTerms 1 2)) := by
  decide +kernel

theorem steweniusRow8_norm : steweniusRow8.map normTerms =
    steweniusKs.map fun k => normTerms (expandTerms 1 k (traceTerms 2 2)) := by
  decide +kernel

theorem steweniusRow9_norm : steweniusRow9.map normTerms =
    steweniusKs.map fun k => normTerms (expandTerms 2 k detTerms) := by
  decide +kernel

end OpenGV
