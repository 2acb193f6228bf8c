import Mathlib.Analysis.SpecialFunctions.Pow.Complex
import Mathlib.Analysis.SpecialFunctions.Pow.Real
import Mathlib.Analysis.SpecialFunctions.Complex.Arctan
import Mathlib.Analysis.SpecialFunctions.Trigonometric.Arctan

/-!
# Model of `src/math/roots.cpp`

Exact arithmetic: `double` is `ℝ`, `std::complex<double>` is `ℂ`; `sqrt` and `pow(., 1/3)` of complex
numbers are the principal branches, as in the C++ standard library. `none` stands for a result with
a division by zero in it (infinite or not a number). The complex numbers whose real parts the code
returns are kept in the result, so that theorems can speak about them.
-/

namespace OpenGV

/-- `std::sqrt(std::complex<double>)`, principal branch. -/
noncomputable def csqrt (z : ℂ) : ℂ := z ^ ((2 : ℕ) : ℂ)⁻¹

/-- `std::pow(std::complex<double>, 1.0/3.0)`, principal branch. -/
noncomputable def ccbrt (z : ℂ) : ℂ := z ^ ((3 : ℕ) : ℂ)⁻¹

open Classical in
/-- The cube root `C` computed in `o3_roots` (src/math/roots.cpp lines 53-76). In the second case the
imaginary part is positive; a zero real part gives `atan(+inf) = π/2`. -/
noncomputable def o3C (theta0 theta1 : ℝ) : ℂ :=
  let term := theta1 * theta1 - 4 * theta0 * theta0 * theta0
  if 0 ≤ term then
    let C3 := (1 / 2) * (theta1 + Real.sqrt term)
    if C3 < 0 then ((-((-C3) ^ ((3 : ℕ) : ℝ)⁻¹) : ℝ) : ℂ) else ((C3 ^ ((3 : ℕ) : ℝ)⁻¹ : ℝ) : ℂ)
  else
    let re := (1 / 2) * theta1
    let im := (1 / 2) * Real.sqrt (-term)
    let r3 := Real.sqrt (re ^ 2 + im ^ 2)
    let at3 := if re = 0 then Real.pi / 2 else Real.arctan (im / re)
    let a3 := if re < 0 then at3 + Real.pi else at3
    let r := r3 ^ ((3 : ℕ) : ℝ)⁻¹
    ⟨r * Real.cos (a3 / 3), r * Real.sin (a3 / 3)⟩

open Classical in
/-- `o3_roots` (src/math/roots.cpp lines 37-87): the three complex numbers `r1`, `r2`, `r3`; the code
returns their real parts. `none` is a division by zero (`a = 0` or `C = 0`). -/
noncomputable def o3RootsC (a b c d : ℝ) : Option (Fin 3 → ℂ) :=
  let theta0 := b * b - 3 * a * c
  let theta1 := 2 * b * b * b - 9 * a * b * c + 27 * a * a * d
  let u1 : ℂ := ⟨1, 0⟩
  let u2 : ℂ := ⟨-(1 / 2), (1 / 2) * Real.sqrt 3⟩
  let u3 : ℂ := ⟨-(1 / 2), -(1 / 2) * Real.sqrt 3⟩
  let C := o3C theta0 theta1
  if a = 0 ∨ C = 0 then none
  else some ![
    -(1 / (3 * (a : ℂ))) * (b + u1 * C + theta0 / (u1 * C)),
    -(1 / (3 * (a : ℂ))) * (b + u2 * C + theta0 / (u2 * C)),
    -(1 / (3 * (a : ℂ))) * (b + u3 * C + theta0 / (u3 * C))]

/-- The returned vector of `o3_roots`. -/
noncomputable def o3Roots (a b c d : ℝ) : Option (List ℝ) :=
  (o3RootsC a b c d).map fun r => [(r 0).re, (r 1).re, (r 2).re]

open Classical in
/-- The quantity `y` of `o4_roots` (src/math/roots.cpp lines 113-123). -/
noncomputable def o4Y (alpha beta gamma : ℝ) : ℂ :=
  let P : ℂ := ((-(alpha * alpha) / 12 - gamma : ℝ) : ℂ)
  let Q : ℂ := ((-(alpha * alpha * alpha) / 108 + alpha * gamma / 3 - beta ^ 2 / 8 : ℝ) : ℂ)
  let R : ℂ := -Q / 2 + csqrt (Q ^ 2 / 4 + P ^ 3 / 27)
  let U := ccbrt R
  if U.re = 0 then -5 * alpha / 6 - ccbrt Q else -5 * alpha / 6 - P / (3 * U) + U

open Classical in
/-- `o4_roots` (src/math/roots.cpp lines 89-139 and, with the same text, 141-191): the four complex
numbers; the code returns their real parts. `none` is a division by zero (`A = 0` or `w = 0`). -/
noncomputable def o4RootsC (A B C D E : ℝ) : Option (Fin 4 → ℂ) :=
  let alpha := -3 * (B * B) / (8 * (A * A)) + C / A
  let beta := (B * B * B) / (8 * (A * A * A)) - B * C / (2 * (A * A)) + D / A
  let gamma := -3 * (B * B * B * B) / (256 * (A * A * A * A)) + (B * B) * C / (16 * (A * A * A)) -
    B * D / (4 * (A * A)) + E / A
  let y := o4Y alpha beta gamma
  let w := csqrt (alpha + 2 * y)
  if A = 0 ∨ w = 0 then none
  else some ![
    -B / (4 * A) + (1 / 2) * (w + csqrt (-(3 * alpha + 2 * y + 2 * beta / w))),
    -B / (4 * A) + (1 / 2) * (w - csqrt (-(3 * alpha + 2 * y + 2 * beta / w))),
    -B / (4 * A) + (1 / 2) * (-w + csqrt (-(3 * alpha + 2 * y - 2 * beta / w))),
    -B / (4 * A) + (1 / 2) * (-w - csqrt (-(3 * alpha + 2 * y - 2 * beta / w)))]

/-- The returned vector of `o4_roots`. -/
noncomputable def o4Roots (A B C D E : ℝ) : Option (List ℝ) :=
  (o4RootsC A B C D E).map fun r => [(r 0).re, (r 1).re, (r 2).re, (r 3).re]

end OpenGV
