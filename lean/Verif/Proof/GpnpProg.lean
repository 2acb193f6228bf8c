import Verif.Proof.GpnpElim

/-!
# The five programs of GPnP
-/

namespace OpenGV

open Matrix Finset

def Gpnp1.pairs : List (Fin 4 × Fin 4) := [(0, 1), (0, 2), (0, 3)]
def Gpnp2.pairs : List (Fin 4 × Fin 4) := [(0, 1), (0, 2), (0, 3), (1, 2), (1, 3)]
def Gpnp3.pairs : List (Fin 4 × Fin 4) := [(0, 1), (0, 2), (0, 3), (1, 2)]
def Gpnp4.pairs : List (Fin 4 × Fin 4) := [(0, 1), (0, 2), (0, 3), (1, 2), (1, 3)]
def Gpnp5.pairs : List (Fin 4 × Fin 4) := [(0, 1), (0, 2), (0, 3), (1, 2), (1, 3), (2, 3)]

theorem Gpnp1.init_ok : initOk pairs uv initTerms = true := by decide +kernel
theorem Gpnp2.init_ok : initOk pairs uv initTerms = true := by decide +kernel
theorem Gpnp3.init_ok : initOk pairs uv initTerms = true := by decide +kernel
theorem Gpnp4.init_ok : initOk pairs uv initTerms = true := by decide +kernel
theorem Gpnp5.init_ok : initOk pairs uv initTerms = true := by decide +kernel

theorem Gpnp1.prog_ok : progOk codes 1 3 (initSupp 0 3 3 5) compute [(3, 0b110)] = true := by
  decide +kernel
theorem Gpnp2.prog_ok : progOk codes 2 6 (initSupp 0 6 5 10) compute
    [(8, 2 ^ 6 - 2 ^ 4), (7, 2 ^ 6 - 2 ^ 3)] = true := by
  decide +kernel
theorem Gpnp3.prog_ok : progOk codes 3 18 (initSupp 8 18 4 15) compute
    [(13, 2 ^ 18 - 2 ^ 16), (12, 2 ^ 18 - 2 ^ 15), (11, 2 ^ 18 - 2 ^ 14)] = true := by
  decide +kernel
theorem Gpnp4.prog_ok : progOk codes 4 37 (initSupp 22 37 5 25) compute
    [(23, 2 ^ 37 - 2 ^ 35), (22, 2 ^ 37 - 2 ^ 34), (21, 2 ^ 37 - 2 ^ 33),
      (20, 2 ^ 37 - 2 ^ 32)] = true := by
  decide +kernel
theorem Gpnp5.prog_ok : progOk codes 5 80 (initSupp 59 80 6 44) compute
    [(42, 2 ^ 80 - 2 ^ 78), (41, 2 ^ 80 - 2 ^ 77), (40, 2 ^ 80 - 2 ^ 76), (39, 2 ^ 80 - 2 ^ 75),
      (38, 2 ^ 80 - 2 ^ 74)] = true := by
  decide +kernel

end OpenGV
