import Verif.LR.Check
/-! Kernel evaluation of the LALR certificate, part 1. -/
set_option maxRecDepth 100000
namespace Verif.LR
theorem cert1 : allFrom 164 164 stOkAt = true := by decide +kernel
end Verif.LR
