import Verif.Model.PythonSolvers
import Verif.Proof.Python

/-!
# Lemmas for the solvers as called from Python
-/

namespace OpenGV.Python

theorem readTwo_ofRows (c d : Vec3 × Vec3) (fs gs : List Vec3) (t : Vec3) (R : Mat3) :
    readTwo ⟨ofRows (c.1 :: d.1 :: fs), ofRows (c.2 :: d.2 :: gs), t, R⟩ = .ok (c, d) := by
  simp only [readTwo, readBoth, vector_ofRows, List.getElem?_cons_zero, List.getElem?_cons_succ]

theorem readTwo_short (fs gs : List Vec3) (t : Vec3) (R : Mat3)
    (h : fs.length < 2 ∨ gs.length < 2) :
    readTwo ⟨ofRows fs, ofRows gs, t, R⟩ = .error .indexError := by
  rcases fs with _ | ⟨f, _ | ⟨f', fs⟩⟩ <;> rcases gs with _ | ⟨g, _ | ⟨g', gs⟩⟩ <;>
    first
    | (simp only [readTwo, readBoth, vector_ofRows, List.getElem?_cons_zero,
        List.getElem?_cons_succ, List.getElem?_nil]; done)
    | (simp only [List.length_cons] at h; omega)

end OpenGV.Python
