/-
The tests of the Python module, tests/test_xcfun.py.

Simplifications: arithmetic on arrays is that of the scalar type `V`; `numpy.arange(0.1, 5.0, 0.5)` is the ten numbers `0.1 + 0.5 i`; `match=` of `pytest.raises` (the
text of the exception) is not modelled; `test_splash`, which prints texts, is left out.  The test file defines `test_pbe_potential_unrestr_closedshell` twice (223, 261), so
that pytest runs only the second; both are modelled.
-/
import Verif.Model.Python

namespace XCFun

variable {V : Type}

/-- What numpy provides. -/
structure Numpy (V : Type) where
  sin : V → V
  cos : V → V
  abs : V → V
  le : V → V → Bool

/-- Why a test does not pass. -/
inductive Fail where
  | raised (e : PyExc)
  | assertion
  | indexError
  | notRaised

/-- A test, or a part of one. -/
def PyTest (α : Type) : Type := Outcome (Except Fail α)

namespace PyTest
variable {α β : Type}

def bind (m : PyTest α) (f : α → PyTest β) : PyTest β := Outcome.bind m fun
  | .ok a => f a
  | .error e => .ok (.error e)

instance : Monad PyTest where
  pure a := Outcome.ok (.ok a)
  bind := bind

/-- A method of a `Functional`: an exception ends the test. -/
def call (m : Outcome (Except PyExc α × State V)) : PyTest (α × State V) := Outcome.bind m fun
  | (.ok a, s) => .ok (.ok (a, s))
  | (.error e, _) => .ok (.error (.raised e))

/-- `assert` -/
def check (b : Bool) : PyTest Unit := if b then pure () else Outcome.ok (.error .assertion)

/-- `with pytest.raises(xcfun.XCFunException): ...`; the object as it is afterwards. -/
def raises (m : Outcome (Except PyExc α × State V)) : PyTest (State V) := Outcome.bind m fun
  | (.ok _, _) => .ok (.error .notRaised)
  | (.error .xcfunException, s) => .ok (.ok s)
  | (.error e, _) => .ok (.error (.raised e))

end PyTest

section
variable [Zero V] [One V] [Add V] [Sub V] [Mul V] [Lit V] (K : Kernel V) (P : Numpy V)

/-- `numpy.testing.assert_allclose(actual, desired)` with its defaults `rtol=1e-07`, `atol=0`. -/
def allclose (actual desired : List V) : PyTest Unit :=
  PyTest.check (actual.length == desired.length && (actual.zip desired).all fun p => P.le (P.abs (p.1 - p.2)) (lit 1 7 * P.abs p.2))

/-- `out[:, j]` -/
def column (a : PyArray V) (j : ℕ) : PyTest (List V) :=
  if j < a.cols then Outcome.bind ((List.range a.rows).mapM fun i => rdBuf a.data (i * a.cols + j)) fun l => .ok (.ok l)
  else Outcome.ok (.error .indexError)

/-- `result[i, j]` -/
def item (a : PyArray V) (i j : ℕ) : PyTest V :=
  if i < a.rows ∧ j < a.cols then Outcome.bind (rdBuf a.data (i * a.cols + j)) fun x => .ok (.ok x)
  else Outcome.ok (.error .indexError)

/-- The fixtures `lda_fun` and `pbe_fun` (test_xcfun.py:52-59), and line 35. -/
def functional (name : String) : PyTest (State V) := Outcome.bind (pyInit [(name, lit 1 0)]) fun
  | .ok s => .ok (.ok s)
  | .error e => .ok (.error (.raised e))

/-! ### Data -/

/-- An element of `dens` (test_xcfun.py:67-69). -/
def densAt (i : ℕ) : V := lit (1 + 5 * i) 1

/-- `dens` -/
def dens : NdArray V where
  shape := [10]
  elem
    | [i] => densAt i
    | _ => 0

/-- `spindens` (test_xcfun.py:72-74) -/
def spinAt (i : ℕ) : V := lit 1 1 * P.sin (densAt i)

/-- `densgrad[i, k]` (test_xcfun.py:77-83) -/
def gradAt (i : ℕ) : ℕ → V
  | 0 => lit 2 1 * P.cos (densAt i)
  | 1 => lit 3 1 * P.sin (densAt i)
  | 2 => lit 1 1 * (P.sin (densAt i) * P.sin (densAt i))
  | _ => 0

/-- `denshess[i, k]` (test_xcfun.py:86-95) -/
def hessAt (i : ℕ) : ℕ → V
  | 0 => lit 5 1
  | 1 => lit 1 1 * densAt i
  | 2 => P.cos (densAt i) * P.cos (densAt i)
  | 3 => P.sin (densAt i)
  | 4 => lit 6 1 * (P.cos (densAt i) * P.cos (densAt i))
  | 5 => lit 3 1 * P.sin (densAt i)
  | _ => 0

/-- `densgrad` -/
def densgrad : NdArray V where
  shape := [10, 3]
  elem
    | [i, k] => gradAt P i k
    | _ => 0

/-- `denshess` -/
def denshess : NdArray V where
  shape := [10, 6]
  elem
    | [i, k] => hessAt P i k
    | _ => 0

/-- `rho` with the given columns (test_xcfun.py:126-128, 146-148, 243-245). -/
def rho (a b : ℕ → V) : NdArray V where
  shape := [10, 2]
  elem
    | [i, 0] => a i
    | [i, 1] => b i
    | _ => 0

/-- `rhograd`: `densgrad` with a factor for each spin (test_xcfun.py:215-217, 247-249, 266-268). -/
def rhograd (ca cb : V) : NdArray V where
  shape := [10, 3, 2]
  elem
    | [i, k, 0] => ca * gradAt P i k
    | [i, k, 1] => cb * gradAt P i k
    | _ => 0

/-- `rhohess`: `denshess` with a factor for each spin (test_xcfun.py:232-234, 270-272). -/
def rhohess (ca cb : V) : NdArray V where
  shape := [10, 6, 2]
  elem
    | [i, k, 0] => ca * hessAt P i k
    | [i, k, 1] => cb * hessAt P i k
    | _ => 0

/-- Densities of closed shells. -/
def rhoClosed : NdArray V := rho (fun i => lit 5 1 * densAt i) fun i => lit 5 1 * densAt i
/-- Densities of test_xcfun.py:147-148. -/
def rhoOpen : NdArray V := rho (fun i => lit 5 1 * densAt i + spinAt P i) fun i => lit 5 1 * densAt i - spinAt P i
/-- Densities of test_xcfun.py:244-245, twice as large. -/
def rhoOpen2 : NdArray V := rho (fun i => densAt i + spinAt P i) fun i => densAt i - spinAt P i

/-- Numbers with eight digits after the point. -/
def ref8 (l : List ℤ) : List V := l.map fun m => lit m 8

def refenLdaZ : List ℤ := [-3962059, -41418026, -91826807, -150300217, -214968647, -284774973, -359023064, -437213299, -518966423, -603982917]
def refpotLdaZ : List ℤ := [-51789018, -90610372, -109730105, -123582171, -134751238, -144246858, -152581304, -160054497, -166858921, -173126329]
def refenLdaOpenZ : List ℤ := [-3985427, -41666061, -92248897, -150718908, -215231233, -284856692, -359023539, -437262230, -519120401, -604193876]
def refpotLdaAlphaZ : List ℤ := [-53994997, -94756428, -114234107, -127610516, -137715554, -145812310, -152695501, -158940021, -164952872, -170973604]
def refpotLdaBetaZ : List ℤ := [-49296826, -85942489, -104738939, -119221060, -131627816, -142641378, -152466911, -161151607, -168716914, -175220302]
def refenPbeZ : List ℤ := [-4051725, -41397904, -91782841, -150231227, -214873903, -284654021, -358875595, -437039097, -518765335, -603754832]
def refpotPbeZ : List ℤ := [-48524858, -90474127, -109660442, -123524903, -134697602, -144193844, -152527933, -160000832, -166805094, -173072351]
def refenPbeOpenZ : List ℤ := [-9848243, -103067727, -228717791, -374476386, -535679716, -709762348, -895059771, -1090338775, -1294601448, -1507029572]
def refpotPbeAlphaZ : List ℤ := [-62768401, -115201996, -139499424, -156595725, -169939803, -180975816, -190530719, -199151265, -207206904, -214925570]
def refpotPbeBetaZ : List ℤ := [-64069084, -110200908, -133808862, -151488446, -166214897, -179045119, -190425337, -200565175, -209589401, -217609771]

/-! ### Tests; `u k` is the content of the array allocated by call `k`, `junk k` uninitialised storage during it. -/

variable (junk : ℕ → Junk V) (u : ℕ → ℕ → V)

/-- test_xcfun.py:32-49 -/
def testLdaOld : PyTest Unit := do
  let s ← functional "LDA"
  let (result, _) ← PyTest.call (evalPotentialN K (junk 0) (u 0) s ⟨[1], fun _ => lit 1 0⟩ none none)
  let energy ← item result 0 0
  let potential ← item result 0 1
  allclose P [energy] [lit (-8101513) 7]
  allclose P [potential] [lit (-106468341) 8]

/-- test_xcfun.py:62-64 -/
def testType : PyTest Unit := do
  let lda ← functional (V := V) "LDA"
  let pbe ← functional (V := V) "PBE"
  PyTest.check (pyType lda == 0)
  PyTest.check (pyType pbe == 1)

/-- test_xcfun.py:114-116 -/
def testLdaEnergyRestr : PyTest Unit := do
  let s ← functional "LDA"
  let (out, _) ← PyTest.call (evalEnergyN K (junk 0) (u 0) s dens none)
  allclose P out (ref8 refenLdaZ)

/-- test_xcfun.py:119-122 -/
def testLdaPotentialRestr : PyTest Unit := do
  let s ← functional "LDA"
  let (out, _) ← PyTest.call (evalPotentialN K (junk 0) (u 0) s dens none none)
  allclose P (← column out 0) (ref8 refenLdaZ)
  allclose P (← column out 1) (ref8 refpotLdaZ)

/-- test_xcfun.py:125-131 -/
def testLdaEnergyClosed : PyTest Unit := do
  let s ← functional "LDA"
  let (out, _) ← PyTest.call (evalEnergyAB K (junk 0) (u 0) s rhoClosed none)
  allclose P out (ref8 refenLdaZ)

/-- test_xcfun.py:134-142 -/
def testLdaPotentialClosed : PyTest Unit := do
  let s ← functional "LDA"
  let (out, _) ← PyTest.call (evalPotentialAB K (junk 0) (u 0) s rhoClosed none none)
  allclose P (← column out 0) (ref8 refenLdaZ)
  allclose P (← column out 1) (ref8 refpotLdaZ)
  allclose P (← column out 2) (ref8 refpotLdaZ)

/-- test_xcfun.py:145-157 -/
def testLdaEnergyOpen : PyTest Unit := do
  let s ← functional "LDA"
  let (out, _) ← PyTest.call (evalEnergyAB K (junk 0) (u 0) s (rhoOpen P) none)
  allclose P out (ref8 refenLdaOpenZ)

/-- test_xcfun.py:160-180 -/
def testLdaPotentialOpen : PyTest Unit := do
  let s ← functional "LDA"
  let (out, s) ← PyTest.call (evalPotentialAB K (junk 0) (u 0) s (rhoOpen P) none none)
  allclose P (← column out 1) (ref8 refpotLdaAlphaZ)
  allclose P (← column out 2) (ref8 refpotLdaBetaZ)
  let (outen, _) ← PyTest.call (evalEnergyAB K (junk 1) (u 1) s (rhoOpen P) none)
  allclose P (← column out 0) outen

/-- test_xcfun.py:199-201 -/
def testPbeEnergyRestr : PyTest Unit := do
  let s ← functional "PBE"
  let (out, _) ← PyTest.call (evalEnergyN K (junk 0) (u 0) s dens (some (densgrad P)))
  allclose P out (ref8 refenPbeZ)

/-- test_xcfun.py:204-207 -/
def testPbePotentialRestr : PyTest Unit := do
  let s ← functional "PBE"
  let (out, _) ← PyTest.call (evalPotentialN K (junk 0) (u 0) s dens (some (densgrad P)) (some (denshess P)))
  allclose P (← column out 0) (ref8 refenPbeZ)
  allclose P (← column out 1) (ref8 refpotPbeZ)

/-- test_xcfun.py:210-220 -/
def testPbeEnergyClosed : PyTest Unit := do
  let s ← functional "PBE"
  let (out, _) ← PyTest.call (evalEnergyAB K (junk 0) (u 0) s rhoClosed (some (rhograd P (lit 5 1) (lit 5 1))))
  allclose P out (ref8 refenPbeZ)

/-- test_xcfun.py:223-239, the definition that is replaced by the one of line 261 -/
def testPbePotentialClosed : PyTest Unit := do
  let s ← functional "PBE"
  let (out, _) ← PyTest.call (evalPotentialAB K (junk 0) (u 0) s rhoClosed (some (rhograd P (lit 5 1) (lit 5 1))) (some (rhohess P (lit 5 1) (lit 5 1))))
  allclose P (← column out 0) (ref8 refenPbeZ)
  allclose P (← column out 1) (ref8 refpotPbeZ)
  allclose P (← column out 2) (ref8 refpotPbeZ)

/-- test_xcfun.py:242-258 -/
def testPbeEnergyOpen : PyTest Unit := do
  let s ← functional "PBE"
  let (out, _) ← PyTest.call (evalEnergyAB K (junk 0) (u 0) s (rhoOpen2 P) (some (rhograd P (lit 4 1) (lit 6 1))))
  allclose P out (ref8 refenPbeOpenZ)

/-- test_xcfun.py:261-288 -/
def testPbePotentialOpen : PyTest Unit := do
  let s ← functional "PBE"
  let (out, s) ← PyTest.call (evalPotentialAB K (junk 0) (u 0) s (rhoOpen2 P) (some (rhograd P (lit 4 1) (lit 6 1))) (some (rhohess P (lit 7 1) (lit 2 1))))
  allclose P (← column out 1) (ref8 refpotPbeAlphaZ)
  allclose P (← column out 2) (ref8 refpotPbeBetaZ)
  let (outen, _) ← PyTest.call (evalEnergyAB K (junk 1) (u 1) s (rhoOpen2 P) (some (rhograd P (lit 4 1) (lit 6 1))))
  allclose P (← column out 0) outen

/-! ### Tests of exceptions -/

/-- `numpy.zeros(shape)` -/
def zeros (shape : List ℕ) : NdArray V := ⟨shape, fun _ => lit 0 0⟩

/-- test_xcfun.py:291-308 -/
def testRaisesEnergyN : PyTest Unit := do
  let lda ← functional "LDA"
  let pbe ← functional "PBE"
  let (_, lda) ← PyTest.call (evalEnergyN K (junk 0) (u 0) lda (zeros [10]) none)
  let _ ← PyTest.raises (evalEnergyN K (junk 1) (u 1) lda (zeros [10, 2]) none)
  let (_, pbe) ← PyTest.call (evalEnergyN K (junk 2) (u 2) pbe (zeros [10]) (some (zeros [10, 3])))
  let pbe ← PyTest.raises (evalEnergyN K (junk 3) (u 3) pbe (zeros [10]) none)
  let pbe ← PyTest.raises (evalEnergyN K (junk 4) (u 4) pbe (zeros [10]) (some (zeros [10])))
  let pbe ← PyTest.raises (evalEnergyN K (junk 5) (u 5) pbe (zeros [10]) (some (zeros [10, 4])))
  let _ ← PyTest.raises (evalEnergyN K (junk 6) (u 6) pbe (zeros [10]) (some (zeros [20, 3])))

/-- test_xcfun.py:311-336 -/
def testRaisesPotentialN : PyTest Unit := do
  let lda ← functional "LDA"
  let pbe ← functional "PBE"
  let (_, lda) ← PyTest.call (evalPotentialN K (junk 0) (u 0) lda (zeros [10]) none none)
  let _ ← PyTest.raises (evalPotentialN K (junk 1) (u 1) lda (zeros [10, 2]) none none)
  let (_, pbe) ← PyTest.call (evalPotentialN K (junk 2) (u 2) pbe (zeros [10]) (some (zeros [10, 3])) (some (zeros [10, 6])))
  let pbe ← PyTest.raises (evalPotentialN K (junk 3) (u 3) pbe (zeros [10]) none none)
  let pbe ← PyTest.raises (evalPotentialN K (junk 4) (u 4) pbe (zeros [10]) (some (zeros [10, 3])) none)
  let pbe ← PyTest.raises (evalPotentialN K (junk 5) (u 5) pbe (zeros [10]) (some (zeros [10])) (some (zeros [10, 6])))
  let pbe ← PyTest.raises (evalPotentialN K (junk 6) (u 6) pbe (zeros [10]) (some (zeros [10, 4])) (some (zeros [10, 6])))
  let pbe ← PyTest.raises (evalPotentialN K (junk 7) (u 7) pbe (zeros [10]) (some (zeros [20, 3])) (some (zeros [10, 6])))
  let pbe ← PyTest.raises (evalPotentialN K (junk 8) (u 8) pbe (zeros [10]) (some (zeros [10, 3])) (some (zeros [10])))
  let pbe ← PyTest.raises (evalPotentialN K (junk 9) (u 9) pbe (zeros [10]) (some (zeros [10, 3])) (some (zeros [10, 3])))
  let _ ← PyTest.raises (evalPotentialN K (junk 10) (u 10) pbe (zeros [10]) (some (zeros [10, 3])) (some (zeros [20, 6])))

/-- test_xcfun.py:339-358 -/
def testRaisesEnergyAB : PyTest Unit := do
  let lda ← functional "LDA"
  let pbe ← functional "PBE"
  let (_, lda) ← PyTest.call (evalEnergyAB K (junk 0) (u 0) lda (zeros [10, 2]) none)
  let lda ← PyTest.raises (evalEnergyAB K (junk 1) (u 1) lda (zeros [10]) none)
  let _ ← PyTest.raises (evalEnergyAB K (junk 2) (u 2) lda (zeros [10, 4]) none)
  let (_, pbe) ← PyTest.call (evalEnergyAB K (junk 3) (u 3) pbe (zeros [10, 2]) (some (zeros [10, 3, 2])))
  let pbe ← PyTest.raises (evalEnergyAB K (junk 4) (u 4) pbe (zeros [10, 2]) none)
  let pbe ← PyTest.raises (evalEnergyAB K (junk 5) (u 5) pbe (zeros [10, 2]) (some (zeros [10, 3])))
  let pbe ← PyTest.raises (evalEnergyAB K (junk 6) (u 6) pbe (zeros [10, 2]) (some (zeros [10, 4, 2])))
  let _ ← PyTest.raises (evalEnergyAB K (junk 7) (u 7) pbe (zeros [10, 2]) (some (zeros [20, 3, 2])))

/-- test_xcfun.py:361-388 -/
def testRaisesPotentialAB : PyTest Unit := do
  let lda ← functional "LDA"
  let pbe ← functional "PBE"
  let (_, lda) ← PyTest.call (evalPotentialAB K (junk 0) (u 0) lda (zeros [10, 2]) none none)
  let lda ← PyTest.raises (evalPotentialAB K (junk 1) (u 1) lda (zeros [10]) none none)
  let _ ← PyTest.raises (evalPotentialAB K (junk 2) (u 2) lda (zeros [10, 4]) none none)
  let (_, pbe) ← PyTest.call (evalPotentialAB K (junk 3) (u 3) pbe (zeros [10, 2]) (some (zeros [10, 3, 2])) (some (zeros [10, 6, 2])))
  let pbe ← PyTest.raises (evalPotentialAB K (junk 4) (u 4) pbe (zeros [10, 2]) none none)
  let pbe ← PyTest.raises (evalPotentialAB K (junk 5) (u 5) pbe (zeros [10, 2]) (some (zeros [10, 3, 2])) none)
  let pbe ← PyTest.raises (evalPotentialAB K (junk 6) (u 6) pbe (zeros [10, 2]) (some (zeros [10, 3])) (some (zeros [10, 6, 2])))
  let pbe ← PyTest.raises (evalPotentialAB K (junk 7) (u 7) pbe (zeros [10, 2]) (some (zeros [10, 4, 2])) (some (zeros [10, 6, 2])))
  let pbe ← PyTest.raises (evalPotentialAB K (junk 8) (u 8) pbe (zeros [10, 2]) (some (zeros [20, 3, 2])) (some (zeros [10, 6, 2])))
  let pbe ← PyTest.raises (evalPotentialAB K (junk 9) (u 9) pbe (zeros [10, 2]) (some (zeros [10, 3, 2])) (some (zeros [10, 6])))
  let pbe ← PyTest.raises (evalPotentialAB K (junk 10) (u 10) pbe (zeros [10, 2]) (some (zeros [10, 3, 2])) (some (zeros [10, 3, 2])))
  let _ ← PyTest.raises (evalPotentialAB K (junk 11) (u 11) pbe (zeros [10, 2]) (some (zeros [10, 3, 2])) (some (zeros [20, 6, 2])))

end
end XCFun
