import Verif.LR.Check
/-! Kernel evaluation of the LALR certificate, part 2. -/
set_option maxRecDepth 100000
namespace Verif.LR
theorem cert2 : allFrom 328 164 stOkAt = true := by decide +kernel
end Verif.LR
