import Verif.Proof.UpnpExampleSym

/-!
# The example with four correspondences: the first check

The two checks are in files of their own because of the memory they need.
-/

namespace OpenGV

open Matrix

theorem axes4_scale : (∀ i : Fin 4, ∀ j : Fin 29, 220496 * axes4F i j = (axes4A i j : ℚ)) ∧
    ∀ j : Fin 29, 220496 * (upnpGenRow4 j : ℚ) = (axes4A 4 j : ℚ) := by
  decide +kernel

theorem axes4_mod : ∀ k : Fin 5, ∀ j : Fin 29, axes4A k j % 11 = natTab axes4T k j := by
  decide +kernel

theorem axes4_check : regGo 11 395 (rawRow upnpTableGen (natTab axes4T) (fun c => c) 395) axes4P 0 [] =
    true := by decide +kernel

end OpenGV
