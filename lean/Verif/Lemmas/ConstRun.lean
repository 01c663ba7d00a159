import Verif.Lemmas.ConstSolve
/-!
# Solutions of the NTRU equation on constants

The kernel evaluates `sSolve`. Degree 1024 has smaller coefficients, so it needs another pair.
-/

namespace Falcon

theorem small_solve : ∀ k < 9, sSolve (k + 1) 2000 95 1 = some (-34, 129) := by decide +kernel

theorem large_solve : sSolve 10 2000 76 59 = some (-55, 119) := by decide +kernel

end Falcon
