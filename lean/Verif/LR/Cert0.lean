import Verif.LR.Check
/-! Kernel evaluation of the LALR certificate, part 0. -/
set_option maxRecDepth 100000
namespace Verif.LR
theorem cert0 : allFrom 0 164 stOkAt = true := by decide +kernel
end Verif.LR
