import Verif.LR.Check
/-! Kernel evaluation of the LALR certificate, part 3. -/
set_option maxRecDepth 100000
namespace Verif.LR
theorem cert3 : allFrom 492 164 stOkAt = true := by decide +kernel
end Verif.LR
