/-
`xcfun_test` (src/XCFunctional.cpp:74-124) and the reference data of the functionals
(`test_vars`, ..., `test_out` of `functional_data`, src/xcint.hpp:57-62).

`std::array` members that the initialiser of a functional does not reach are zero, so a functional
without data has `test_mode = XC_MODE_UNSET`.  The macros around some of the data
(`XCFUN_REF_PBEX_MU`, `HIGH_DENSITY`, `INEXACT_PI`, `TEST1`, `TEST4`) are not defined; `TEST2` is (src/functionals/pw91c.cpp:89).
-/
import Verif.Model.Process
import Mathlib.Data.Real.Basic

namespace XCFun

/-- A decimal literal `m / 10^e`. -/
abbrev Dec := ℤ × ℕ

/-- `test_vars`, `test_mode`, `test_order`, `test_threshold`, `test_in`, `test_out`
    (src/xcint.hpp:57-62).  `input` and `output` are the explicit initialisers. -/
structure TestData where
  vars : ℤ := 0
  mode : ℤ := MODE_UNSET
  order : ℤ := 0
  threshold : Dec := (0, 0)
  input : List Dec := []
  output : List Dec := []

/-- An array member with `n` elements, the rest of its initialiser being zero. -/
def padded {V : Type} [Lit V] (n : ℕ) (l : List Dec) : List V :=
  (l.map fun d => lit d.1 d.2) ++ List.replicate (n - l.length) (lit 0 0)

/-- `std::array<double, 16> test_in` (src/xcint.hpp:61) -/
def TestData.testIn {V : Type} [Lit V] (d : TestData) : List V := padded 16 d.input
/-- `std::array<double, 128> test_out` (src/xcint.hpp:62) -/
def TestData.testOut {V : Type} [Lit V] (d : TestData) : List V := padded 128 d.output
/-- `test_threshold` (src/xcint.hpp:60) -/
def TestData.testThreshold {V : Type} [Lit V] (d : TestData) : V := lit d.threshold.1 d.threshold.2

/-- The data of each functional, in the order of the enumeration
    (src/functionals/list_of_functionals.hpp:17-98); files in src/functionals/. -/
def testTable : List TestData := [
  -- 0 XC_SLATERX: slaterx.cpp:27-37
  { vars := (Vars.A_B).code, mode := PARTIAL_DERIVATIVES, order := 2, threshold := (1, 11)
    input := [(39, 0), (38, 0)]
    output := [
      (-241948147838, 9), (-420747936684, 11), (-4171206188, 9), (-359613621097, 13), (0, 0), (-365895279649, 13)] },
  -- 1 XC_PW86X: pw86x.cpp:39, the initialiser ends after the variables
  { vars := (Vars.A_B_GAA_GAB_GBB).code },
  {}, -- 2 XC_VWN3C: vwn3.cpp:30
  -- 3 XC_VWN5C: vwn5c.cpp:31-41
  { vars := (Vars.A_B).code, mode := PARTIAL_DERIVATIVES, order := 2, threshold := (1, 11)
    input := [(39, 0), (38, 0)]
    output := [
      (-851077910672, 11), (-119099058995, 12), (-120906044904, 12), (756836181702, 15), (-10286128183, 13),
      (800136175083, 15)] },
  -- 4 XC_PBEC: pbec.cpp:67-80
  { vars := (Vars.A_B_GAA_GAB_GBB).code, mode := PARTIAL_DERIVATIVES, order := 2, threshold := (1, 11)
    input := [(39, 0), (38, 0), (810000, 0), (820000, 0), (820000, 0)]
    output := [
      (-184442072405, 11), (-81433453428, 12), (-820182123795, 13), (510839298939, 18), (102167859788, 17),
      (510839298939, 18), (-124297349784, 14), (-183505806584, 14), (134850158624, 19), (269700317248, 19),
      (134850158624, 19), (-125767116982, 14), (13618947824, 18), (27237895648, 18), (13618947824, 18),
      (-216571369852, 24), (-433142739704, 24), (-216571369852, 24), (-866285479407, 24), (-433142739704, 24),
      (-216571369852, 24)] },
  {}, -- 5 XC_PBEX: pbex.cpp:32 (the data are inside `#ifdef XCFUN_REF_PBEX_MU`, not defined: config.hpp:39)
  -- 6 XC_BECKEX: beckex.cpp:104-118
  { vars := (Vars.A_B_GAA_GAB_GBB).code, mode := PARTIAL_DERIVATIVES, order := 2, threshold := (1, 11)
    input := [(39, 0), (38, 0), (810000, 0), (820000, 0), (820000, 0)]
    output := [
      (-277987329958, 9), (-385951846654, 11), (-381309494319, 11), (-172434478018, 16), (0, 0),
      (-173712338362, 16), (-441426807406, 13), (0, 0), (201415922856, 18), (0, 0), (0, 0), (-44724574226, 12),
      (0, 0), (0, 0), (195961359539, 18), (700742719647, 23), (0, 0), (0, 0), (0, 0), (0, 0), (718678968862, 23)] },
  -- 7 XC_BECKECORRX: beckex.cpp:128-156
  { vars := (Vars.A_B_GAA_GAB_GBB).code, mode := PARTIAL_DERIVATIVES, order := 2, threshold := (1, 11)
    input := [(39, 0), (38, 0), (810000, 0), (820000, 0), (820000, 0)]
    output := [
      (-3603918211981, 11), (3479609002901, 13), (3581112448092, 13), (-1724344780183, 17), (0, 0),
      (-1737123383621, 17), (-8181318630937, 15), (0, 0), (2014159228564, 19), (0, 0), (0, 0), (-8135046261131, 15),
      (0, 0), (0, 0), (1959613595393, 19), (70074271964711398, 28), (0, 0), (0, 0), (0, 0), (0, 0),
      (71867896886212297, 28)] },
  {}, -- 8 XC_BECKESRX: beckex.cpp:163
  {}, -- 9 XC_BECKECAMX: beckex.cpp:169
  {}, -- 10 XC_BRX: brx.cpp:143
  {}, -- 11 XC_BRC: brx.cpp:150
  {}, -- 12 XC_BRXC: brx.cpp:157
  -- 13 XC_LDAERFX: ldaerfx.cpp:63-73
  { vars := (Vars.A_B).code, mode := PARTIAL_DERIVATIVES, order := 2, threshold := (1, 7)
    input := [(11, 1), (1, 0)]
    output := [
      (-1553573128702155, 15), (-1067732841218878, 15), (-1028091463003927, 15), (-3842706760115777, 16), (0, 0),
      (-4092115557248567, 16)] },
  -- 14 XC_LDAERFC: ldaerfc.cpp:121-133
  { vars := (Vars.A_B).code, mode := PARTIAL_DERIVATIVES, order := 2, threshold := (1, 7)
    input := [(11, 1), (1, 0)]
    output := [
      (-1457939027226787, 16), (-7762481738554998, 17), (-82132052511772885, 18), (15795011054215363, 18),
      (-2744092817998519, 17), (19539616096309973, 18)] },
  {}, -- 15 XC_LDAERFC_JT: ldaerfc_jt.cpp:64
  -- 16 XC_LYPC: lypc.cpp:49-74
  { vars := (Vars.A_B_GAA_GAB_GBB).code, mode := PARTIAL_DERIVATIVES, order := 2, threshold := (1, 11)
    input := [(39, 0), (38, 0), (810000, 0), (820000, 0), (820000, 0)]
    output := [
      (-402158795173, 11), (-762734644914, 13), (-830226435821, 13), (301052145436, 18), (220298633297, 18),
      (369624286402, 18), (331769729999, 14), (-24843874927, 13), (-398359773843, 19), (-335415277613, 20),
      (263970784129, 19), (384280348438, 14), (275886078235, 19), (-68547489836, 19), (-433118929134, 19), (0, 0),
      (0, 0), (0, 0), (0, 0), (0, 0), (0, 0)] },
  {}, -- 17 XC_OPTX: optx.cpp:32
  {}, -- 18 XC_OPTXCORR: optxcorr.cpp:40
  {}, -- 19 XC_REVPBEX: revpbex.cpp:28
  {}, -- 20 XC_RPBEX: rpbex.cpp:31
  {}, -- 21 XC_SPBEC: spbec.cpp:53
  {}, -- 22 XC_VWN_PBEC: pbec.cpp:92
  -- 23 XC_KTX: ktx.cpp:50-77
  { vars := (Vars.A_B_GAA_GAB_GBB).code, mode := PARTIAL_DERIVATIVES, order := 2, threshold := (1, 11)
    input := [(39, 0), (38, 0), (810000, 0), (820000, 0), (820000, 0)]
    output := [
      (12533312965365759737, 15), (-20906588852649329624, 17), (-22485950142470750279, 17),
      (7555309800741889098, 21), (0, 0), (78213561302010112253, 22), (12497415159317823097, 18), (0, 0),
      (-25810603521789297204, 23), (0, 0), (0, 0), (13794820570009042271, 18), (0, 0), (0, 0),
      (-27421890417647258121, 23), (0, 0), (0, 0), (0, 0), (0, 0), (0, 0), (0, 0)] },
  -- 24 XC_TFK: tfk.cpp:30-40
  { vars := (Vars.A_B).code, mode := PARTIAL_DERIVATIVES, order := 1, threshold := (1, 5)
    input := [(1, 0), (8, 1)]
    output := [
      (764755771625168, 14), (708107195949229, 14), (708107195949229, 14), (262261924425641, 14),
      (262261924425641, 14), (262261924425641, 14)] },
  -- 25 XC_TW: tw.cpp:29, the initialiser ends after the variables
  { vars := (Vars.A_B_GAA_GAB_GBB).code },
  -- 26 XC_PW91X: pw91x.cpp:36-49
  { vars := (Vars.A_B_GAA_GAB_GBB).code, mode := PARTIAL_DERIVATIVES, order := 2, threshold := (1, 11)
    input := [(82, 0), (81, 0), (4900000, 0), (4900000, 0), (4900000, 0)]
    output := [
      (-73993427028, 8), (-500194130392, 11), (-497593413511, 11), (-661655297347, 17), (0, 0), (-665149614704, 17),
      (-259426653786, 13), (0, 0), (352029178373, 19), (0, 0), (0, 0), (-260706018375, 13), (0, 0), (0, 0),
      (34674033454, 18), (454242196579, 24), (0, 0), (0, 0), (0, 0), (0, 0), (463780470889, 24)] },
  {}, -- 27 XC_PW91K: pw91k.cpp:35
  -- 28 XC_PW92C: pw92c.cpp:29-41
  { vars := (Vars.A_B).code, mode := PARTIAL_DERIVATIVES, order := 2, threshold := (1, 11)
    input := [(39, 0), (38, 0)]
    output := [
      (-84713855882783946, 16), (-11861930857502517, 17), (-12041769989725633, 17), (7520285561909587, 19),
      (-10249091426230799, 19), (7951608919523213, 19)] },
  -- 29 XC_M05X: m05x.cpp:47-59
  { vars := (Vars.A_B_GAA_GAB_GBB_TAUA_TAUB).code, mode := PARTIAL_DERIVATIVES, order := 1, threshold := (3, 5)
    input := [(1, 0), (8, 1), (1, 0), (1, 0), (1, 0), (165, 3), (105, 3)]
    output := [
      (-157876583, 8), (-212127045, 8), (-211264351, 8), (-315462, 8), (0, 0), (-44456, 7), (345640232, 8),
      (44349756, 7)] },
  -- 30 XC_M05X2X: m05x2x.cpp:47-59
  { vars := (Vars.A_B_GAA_GAB_GBB_TAUA_TAUB).code, mode := PARTIAL_DERIVATIVES, order := 1, threshold := (3, 5)
    input := [(1, 0), (8, 1), (1, 0), (1, 0), (1, 0), (165, 3), (105, 3)]
    output := [
      (-138233309, 8), (-19638222, 8), (-8614105, 8), (-289174, 8), (0, 0), (-365982, 8), (-318842316, 8),
      (-390587738, 8)] },
  {}, -- 31 XC_M06X: m06x.cpp:63 (the data are inside `#ifdef XCFUN_REF_PBEX_MU`, not defined: config.hpp:39)
  -- 32 XC_M06X2X: m06x2x.cpp:49-61
  { vars := (Vars.A_B_GAA_GAB_GBB_TAUA_TAUB).code, mode := PARTIAL_DERIVATIVES, order := 1, threshold := (3, 5)
    input := [(1, 0), (8, 1), (1, 0), (1, 0), (1, 0), (165, 3), (105, 3)]
    output := [
      (-6380389, 7), (-81863653, 8), (-8120875, 7), (-127795, 8), (0, 0), (-179117, 8), (125220996, 8),
      (160808316, 8)] },
  -- 33 XC_M06LX: m06lx.cpp:62-74
  { vars := (Vars.A_B_GAA_GAB_GBB_TAUA_TAUB).code, mode := PARTIAL_DERIVATIVES, order := 1, threshold := (1, 5)
    input := [(1, 0), (8, 1), (1, 0), (1, 0), (1, 0), (165, 3), (105, 3)]
    output := [
      (-160059999, 8), (-185109109, 8), (-18134482, 7), (-370516, 8), (0, 0), (-508827, 8), (23886147, 7),
      (305312252, 8)] },
  -- 34 XC_M06HFX: m06hfx.cpp:62-74
  { vars := (Vars.A_B_GAA_GAB_GBB_TAUA_TAUB).code, mode := PARTIAL_DERIVATIVES, order := 1, threshold := (1, 5)
    input := [(1, 0), (8, 1), (1, 0), (1, 0), (1, 0), (165, 3), (105, 3)]
    output := [
      (1960126, 7), (87809662, 8), (90304189, 8), (284062, 8), (0, 0), (398338, 8), (-27579263, 7), (-342255772, 8)] },
  {}, -- 35 XC_M05X2C: m05x2c.cpp:56
  {}, -- 36 XC_M05C: m05c.cpp:56
  -- 37 XC_M06C: m06c.cpp:72-84
  { vars := (Vars.A_B_GAA_GAB_GBB_TAUA_TAUB).code, mode := PARTIAL_DERIVATIVES, order := 1, threshold := (5, 5)
    input := [(1, 0), (2, 0), (2, 0), (1, 0), (3, 0), (1, 0), (2, 0)]
    output := [
      (-13563164150574752, 17), (-131522634780454, 15), (-1095804911824488, 17), (-6743582614131827, 19), (0, 0),
      (-7065762242385136, 19), (1312970361640244, 17), (-2732803203907383, 18)] },
  {}, -- 38 XC_M06HFC: m06hfc.cpp:71
  {}, -- 39 XC_M06LC: m06lc.cpp:69
  {}, -- 40 XC_M06X2C: m06x2c.cpp:71
  -- 41 XC_TPSSC: tpssc.cpp:33-45
  { vars := (Vars.A_B_GAA_GAB_GBB_TAUA_TAUB).code, mode := PARTIAL_DERIVATIVES, order := 1, threshold := (1, 6)
    input := [(1, 0), (2, 0), (3, 0), (4, 0), (5, 0), (6, 0), (7, 0)]
    output := [
      (-21824017471364521, 17), (-114815778042036, 15), (-7968561473875205, 17), (8304923723228601, 19),
      (1671559231642408, 18), (8327578102972385, 19), (-1440645713140351, 20), (-1440645713140351, 20)] },
  -- 42 XC_TPSSX: tpssx.cpp:38-56
  { vars := (Vars.A_B_GAA_GAB_GBB_TAUA_TAUB).code, mode := PARTIAL_DERIVATIVES, order := 1, threshold := (1, 8)
    input := [(153652558932587, 15), (153652558932587, 15), (8390981882024583, 17), (8390981882024583, 17), (8390981882024583, 17), (6826262722466284, 17), (6826262722466284, 17)]
    output := [
      (-17369862616505458, 17), (-696647334686932, 15), (-696647334686932, 15), (-104380091839662, 15), (0, 0),
      (-104380091839662, 15), (128315600541666, 15), (128315600541666, 15)] },
  {}, -- 43 XC_REVTPSSC: revtpssc.cpp:33
  {}, -- 44 XC_REVTPSSX: revtpssx.cpp:32
  -- 45 XC_SCANC: SCANc.cpp:31-43
  { vars := (Vars.A_B_GAA_GAB_GBB_TAUA_TAUB).code, mode := PARTIAL_DERIVATIVES, order := 1, threshold := (1, 11)
    input := [(217, 3), (632, 4), (191, 3), (535, 4), (15, 3), (267, 3), (328, 4)]
    output := [
      (-7426891519, 12), (-191882337268, 13), (-634666733088, 13), (108870558794, 13), (217741117588, 13),
      (108870558794, 13), (-17643750372, 12), (-17643750372, 12)] },
  -- 46 XC_SCANX: SCANx.cpp:37-49
  { vars := (Vars.A_B_GAA_GAB_GBB_TAUA_TAUB).code, mode := PARTIAL_DERIVATIVES, order := 1, threshold := (1, 11)
    input := [(217, 3), (632, 4), (191, 3), (535, 4), (15, 3), (267, 3), (328, 4)]
    output := [
      (-162177290711, 12), (-86728227233, 11), (-558386982606, 12), (-408961346066, 13), (0, 0),
      (-983984390668, 13), (655853126427, 13), (518444044761, 13)] },
  -- 47 XC_RSCANC: rSCANc.cpp:32-44
  { vars := (Vars.A_B_GAA_GAB_GBB_TAUA_TAUB).code, mode := PARTIAL_DERIVATIVES, order := 1, threshold := (1, 11)
    input := [(217, 3), (632, 4), (191, 3), (535, 4), (15, 3), (267, 3), (328, 4)]
    output := [
      (-750556494224, 14), (-196870403236, 13), (-641852283218, 13), (109960132228, 13), (219920264457, 13),
      (109960132228, 13), (-176965520905, 13), (-176965520905, 13)] },
  -- 48 XC_RSCANX: rSCANx.cpp:37-49
  { vars := (Vars.A_B_GAA_GAB_GBB_TAUA_TAUB).code, mode := PARTIAL_DERIVATIVES, order := 1, threshold := (1, 11)
    input := [(217, 3), (632, 4), (191, 3), (535, 4), (15, 3), (267, 3), (328, 4)]
    output := [
      (-162495194787, 12), (-86357191847, 11), (-557161075215, 12), (-359375593614, 13), (0, 0),
      (-108233529563, 12), (572375010611, 13), (569395908684, 13)] },
  -- 49 XC_RPPSCANC: rppSCANc.cpp:31-43
  { vars := (Vars.A_B_GAA_GAB_GBB_TAUA_TAUB).code, mode := PARTIAL_DERIVATIVES, order := 1, threshold := (1, 11)
    input := [(217, 3), (632, 4), (191, 3), (535, 4), (15, 3), (267, 3), (328, 4)]
    output := [
      (-752313999333, 14), (-198575241135, 13), (-643444019823, 13), (109821296406, 13), (219642592812, 13),
      (109821296406, 13), (-176156638566, 13), (-176156638566, 13)] },
  -- 50 XC_RPPSCANX: rppSCANx.cpp:36-48
  { vars := (Vars.A_B_GAA_GAB_GBB_TAUA_TAUB).code, mode := PARTIAL_DERIVATIVES, order := 1, threshold := (1, 11)
    input := [(217, 3), (632, 4), (191, 3), (535, 4), (15, 3), (267, 3), (328, 4)]
    output := [
      (-162422140833, 12), (-863058918283, 12), (-558294304642, 12), (-358443838214, 13), (0, 0),
      (-988320884046, 13), (570095454667, 13), (520592592676, 13)] },
  -- 51 XC_R2SCANC: r2SCANc.cpp:32-44
  { vars := (Vars.A_B_GAA_GAB_GBB_TAUA_TAUB).code, mode := PARTIAL_DERIVATIVES, order := 1, threshold := (1, 11)
    input := [(217, 3), (632, 4), (191, 3), (535, 4), (15, 3), (267, 3), (328, 4)]
    output := [
      (-752536253477, 14), (-199923310008, 13), (-645082284064, 13), (110376734989, 13), (220753469977, 13),
      (110376734989, 13), (-176333423096, 13), (-176333423096, 13)] },
  -- 52 XC_R2SCANX: r2SCANx.cpp:37-49
  { vars := (Vars.A_B_GAA_GAB_GBB_TAUA_TAUB).code, mode := PARTIAL_DERIVATIVES, order := 1, threshold := (1, 11)
    input := [(217, 3), (632, 4), (191, 3), (535, 4), (15, 3), (267, 3), (328, 4)]
    output := [
      (-162076202284, 12), (-860008389872, 12), (-557023311096, 12), (-379265043692, 13), (0, 0),
      (-104606093722, 12), (589149529531, 13), (550319523444, 13)] },
  -- 53 XC_R4SCANC: r4SCANc.cpp:31-43
  { vars := (Vars.A_B_GAA_GAB_GBB_TAUA_TAUB).code, mode := PARTIAL_DERIVATIVES, order := 1, threshold := (1, 11)
    input := [(217, 3), (632, 4), (191, 3), (535, 4), (15, 3), (267, 3), (328, 4)]
    output := [
      (-752536253477, 14), (-199923310008, 13), (-645082284064, 13), (110376734989, 13), (220753469977, 13),
      (110376734989, 13), (-176333423096, 13), (-176333423096, 13)] },
  -- 54 XC_R4SCANX: r4SCANx.cpp:36-48
  { vars := (Vars.A_B_GAA_GAB_GBB_TAUA_TAUB).code, mode := PARTIAL_DERIVATIVES, order := 1, threshold := (1, 11)
    input := [(217, 3), (632, 4), (191, 3), (535, 4), (15, 3), (267, 3), (328, 4)]
    output := [
      (-162076202198, 12), (-860008367983, 12), (-557023311096, 12), (-379265181913, 13), (0, 0),
      (-104606093722, 12), (589149583569, 13), (550319523444, 13)] },
  -- 55 XC_PZ81C: pz81c.cpp:26-49
  { vars := (Vars.A_B).code, mode := PARTIAL_DERIVATIVES, order := 2, threshold := (1, 11)
    input := [(48, 3), (25, 3)]
    output := [
      (-358997585489, 14), (-468661877874, 13), (-731782746282, 13), (21857788508, 11), (-646538277526, 12),
      (867717298846, 12)] },
  -- 56 XC_P86C: p86c.cpp:61-110
  { vars := (Vars.A_B_GAA_GAB_GBB).code, mode := PARTIAL_DERIVATIVES, order := 2, threshold := (1, 10)
    input := [(48, 3), (25, 3), (46, 4), (44, 4), (41, 4)]
    output := [
      (-22748317487871362, 19), (-60705512544759296, 18), (-80995821166401388, 18), (54284455865926534, 18),
      (10856891173185307, 17), (54284455865926534, 18), (32978359263409207, 17), (-51791169779733182, 17),
      (-23191926560979093, 17), (-46383853121958185, 17), (-23191926560979093, 17), (56456418726387536, 17),
      (16638251739185206, 18), (33276503478370412, 18), (16638251739185206, 18), (-14574898694069474, 16),
      (-29149797388138947, 16), (-14574898694069474, 16), (-58299594776277894, 16), (-29149797388138947, 16),
      (-14574898694069474, 16)] },
  {}, -- 57 XC_P86CORRC: p86c.cpp:119
  {}, -- 58 XC_BTK: btk.cpp:33
  {}, -- 59 XC_VWK: vonw.cpp:29
  {}, -- 60 XC_B97X: b97xc.cpp:43
  {}, -- 61 XC_B97C: b97xc.cpp:52
  {}, -- 62 XC_B97_1X: b97-1xc.cpp:42
  {}, -- 63 XC_B97_1C: b97-1xc.cpp:50
  {}, -- 64 XC_B97_2X: b97-2xc.cpp:43
  {}, -- 65 XC_B97_2C: b97-2xc.cpp:52
  {}, -- 66 XC_CSC: cs.cpp:35
  {}, -- 67 XC_APBEC: apbec.cpp:46
  {}, -- 68 XC_APBEX: apbex.cpp:46
  {}, -- 69 XC_ZVPBESOLC: zvpbesolc.cpp:101
  {}, -- 70 XC_BLOCX: blocx.cpp:61
  {}, -- 71 XC_PBEINTC: pbeintc.cpp:46
  {}, -- 72 XC_PBEINTX: pbeintx.cpp:49
  {}, -- 73 XC_PBELOCC: pbelocc.cpp:50
  {}, -- 74 XC_PBESOLX: pbesolx.cpp:46
  {}, -- 75 XC_TPSSLOCC: tpsslocc.cpp:105
  {}, -- 76 XC_ZVPBEINTC: zvpbeint.cpp:63
  -- 77 XC_PW91C: pw91c.cpp:101-127, `TEST2` being defined (89)
  { vars := (Vars.A_B_GAA_GAB_GBB).code, mode := PARTIAL_DERIVATIVES, order := 2, threshold := (1, 11)
    input := [(17, 1), (17, 1), (81, 13), (81, 13), (81, 13)]
    output := [
      (-277344423214, 12), (-902549628505, 13), (-902549628505, 13), (973880560793, 15), (194776112159, 14),
      (973880560793, 15), (129726626281, 13), (-182704041173, 13), (-381075641669, 15), (-762151283338, 15),
      (-381075641669, 15), (129726626281, 13), (-381075641669, 15), (-762151283338, 15), (-381075641669, 15),
      (-37245530782, 15), (-744910615639, 16), (-37245530782, 15), (-148982123128, 15), (-744910615639, 16),
      (-37245530782, 15)] }
]

section
variable {V : Type} [Zero V] [One V] [Add V] [Sub V] [Mul V] [Lit V]

/-- The comparison loop (XCFunctional.cpp:89-93): the number `nerr` of entries for which `far`, that is
    `abs(out[i] - ref[i]) > abs(ref[i] * threshold)`, is true. -/
def countErrors (far : V → V → V → Bool) (thr : V) (out ref : List V) (n : ℕ) : Outcome ℕ :=
  forLoop (fun i nerr => do
    let o ← rdBuf out i
    let r ← rdBuf ref i
    pure (if far o r thr then nerr + 1 else nerr)) n 0 0

/-- The part of the loop body that depends on the test data (XCFunctional.cpp:81-120), on the object at address `p`:
    whether `nfail` is increased.  `buf` is the content of the freshly allocated array `out` (85).  The messages to `stderr` are not modelled.
    `fd->test_in.empty()` (86) is false, the array having 16 elements. -/
def testOne (K : Kernel V) (far : V → V → V → Bool) (junk : Junk V) (buf : ℕ → V) (p : ℕ) (d : TestData) (w : Proc V) :
    Outcome (Bool × Proc V) :=
  if d.mode ≠ MODE_UNSET then do
    let r ← opStep K w (.call (some p) (.evalSetup d.vars d.mode d.order))
    match r with
    | (.code 0, w) => do
      let r ← opStep K w (.call (some p) .outputLength)
      match r with
      | (.code n, w) =>
        if n < 0 then .die -- `new double[n]` throws
        else do
          let r ← opStep K w (.call (some p) (.eval junk d.testIn ((List.range n.toNat).map buf)))
          match r with
          | (.buffer out, w) => do
            let nerr ← countErrors far d.testThreshold out d.testOut n.toNat
            pure (decide (0 < nerr), w)
          | _ => .ub -- not reached: `eval` returns a buffer
      | _ => .ub -- not reached: `outputLength` returns a number
    | (_, w) => pure (true, w)
  else pure (false, w)

/-- One iteration of the outer loop (XCFunctional.cpp:76-122).  `addr` is the allocator's choice in `xcfun_new`.  The name is
    read from the table (79), a null pointer if the table is not filled; the return value of `xcfun_set` is ignored. -/
def testIter (K : Kernel V) (far : V → V → V → Bool) (junk : Junk V) (buf : ℕ → V) (addr : Option ℕ) (f : ℕ) (w : Proc V) :
    Outcome (Bool × Proc V) := do
  let r ← opStep K w (.new addr)
  match addr, r.2.tabs.funTab f, testTable[f]? with
  | some p, some fd, some d => do
    let q ← opStep K r.2 (.call (some p) (.set fd.name (lit 1 0)))
    let b ← testOne K far junk buf p d q.2
    let e ← opStep K b.2 (.delete (some p))
    pure (b.1, e.2)
  | _, _, _ => .ub

/-- `xcfun_test` (XCFunctional.cpp:74-124): `nfail`.  `addr f`, `junk f`, `buf f` describe the memory during iteration `f`. -/
def xcfunTest (K : Kernel V) (far : V → V → V → Bool) (junk : ℕ → Junk V) (buf : ℕ → ℕ → V) (addr : ℕ → Option ℕ) (w : Proc V) :
    Outcome (ℕ × Proc V) :=
  forLoop (fun f st => do
    let r ← testIter K far (junk f) (buf f) (addr f) f st.2
    pure (if r.1 then st.1 + 1 else st.1, r.2)) NR_FUNCTIONALS 0 (0, w)

end

/-- The comparison on real numbers (XCFunctional.cpp:91-92). -/
noncomputable def farReal (o r t : ℝ) : Bool := open Classical in decide (|o - r| > |r * t|)

end XCFun
