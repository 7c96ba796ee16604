import Verif.Model.Api

/-!
# Exact rational literals, for concrete examples
-/

namespace XCFun

/-- The literal `m / 10^e` as an exact rational number (used only in examples and witnesses). -/
instance : Lit Rat := ⟨fun m e => mkRat m (10 ^ e)⟩

end XCFun
