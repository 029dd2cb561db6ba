import Verif.Prime.Criteria
import Mathlib.Tactic.NormNum.Prime

/-!
# The nine moduli are prime

Primality certificates (chains of Pocklington and Morrison steps), found outside Lean and
checked by the kernel.
-/

namespace Verif.Prime

theorem prime_119611 : Nat.Prime 119611 := by norm_num

theorem prime_105943 : Nat.Prime 105943 := by norm_num

theorem prime_37_689039 : Nat.Prime 76031689039 :=
  prime_of_pred 2 37 [(119611, 1), (105943, 1)]
    (by simp only [List.forall_mem_cons, List.not_mem_nil, false_imp_iff, implies_true, and_true]; exact ⟨prime_119611, prime_105943⟩)
    (by decide +kernel)

theorem prime_42_427327 : Nat.Prime 2585077427327 :=
  prime_of_pred 2 42 [(76031689039, 1)]
    (by simp only [List.forall_mem_cons, List.not_mem_nil, false_imp_iff, implies_true, and_true]; exact prime_37_689039)
    (by decide +kernel)

theorem prime_73_717321 : Nat.Prime 4815314615204347717321 :=
  prime_of_pred 3 73 [(2585077427327, 1)]
    (by simp only [List.forall_mem_cons, List.not_mem_nil, false_imp_iff, implies_true, and_true]; exact prime_42_427327)
    (by decide +kernel)

theorem prime_5683 : Nat.Prime 5683 := by norm_num

theorem prime_839 : Nat.Prime 839 := by norm_num

theorem prime_31_514287 : Nat.Prime 1325514287 :=
  prime_of_pred 2 31 [(5683, 1), (839, 1)]
    (by simp only [List.forall_mem_cons, List.not_mem_nil, false_imp_iff, implies_true, and_true]; exact ⟨prime_5683, prime_839⟩)
    (by decide +kernel)

theorem prime_60_413417 : Nat.Prime 671165898617413417 :=
  prime_of_pred 3 60 [(1325514287, 1)]
    (by simp only [List.forall_mem_cons, List.not_mem_nil, false_imp_iff, implies_true, and_true]; exact prime_31_514287)
    (by decide +kernel)

theorem prime_221_281149 : Nat.Prime 3369993333393829974333376885877453834204643052817571560137951281149 :=
  prime_of_pred 2 221 [(4815314615204347717321, 1), (671165898617413417, 1)]
    (by simp only [List.forall_mem_cons, List.not_mem_nil, false_imp_iff, implies_true, and_true]; exact ⟨prime_73_717321, prime_60_413417⟩)
    (by decide +kernel)

theorem prime_107 : Nat.Prime 107 := by norm_num

theorem prime_37 : Nat.Prime 37 := by norm_num

theorem prime_1163947 : Nat.Prime 1163947 :=
  prime_of_pred 2 21 [(107, 1), (37, 1)]
    (by simp only [List.forall_mem_cons, List.not_mem_nil, false_imp_iff, implies_true, and_true]; exact ⟨prime_107, prime_37⟩)
    (by decide +kernel)

theorem prime_31_936819 : Nat.Prime 1738936819 :=
  prime_of_pred 2 31 [(1163947, 1)]
    (by simp only [List.forall_mem_cons, List.not_mem_nil, false_imp_iff, implies_true, and_true]; exact prime_1163947)
    (by decide +kernel)

theorem prime_42_184917 : Nat.Prime 2719697184917 :=
  prime_of_pred 2 42 [(1738936819, 1)]
    (by simp only [List.forall_mem_cons, List.not_mem_nil, false_imp_iff, implies_true, and_true]; exact prime_31_936819)
    (by decide +kernel)

theorem prime_82_400317 : Nat.Prime 3859677428259295591400317 :=
  prime_of_pred 2 82 [(2719697184917, 1)]
    (by simp only [List.forall_mem_cons, List.not_mem_nil, false_imp_iff, implies_true, and_true]; exact prime_42_184917)
    (by decide +kernel)

theorem prime_94_520911 : Nat.Prime 13647819386324869211191520911 :=
  prime_of_succ 3 13647819386324869211191520909
    13647819386324869211191520910 94 [(3859677428259295591400317, 1)]
    (by simp only [List.forall_mem_cons, List.not_mem_nil, false_imp_iff, implies_true, and_true]; exact prime_82_400317)
    (by decide +kernel)

theorem prime_108_669071 : Nat.Prime 168823525808838632142439113669071 :=
  prime_of_pred 2 108 [(13647819386324869211191520911, 1)]
    (by simp only [List.forall_mem_cons, List.not_mem_nil, false_imp_iff, implies_true, and_true]; exact prime_94_520911)
    (by decide +kernel)

theorem prime_136_456037 : Nat.Prime 49768823580217843135881665866529244456037 :=
  prime_of_pred 2 136 [(168823525808838632142439113669071, 1)]
    (by simp only [List.forall_mem_cons, List.not_mem_nil, false_imp_iff, implies_true, and_true]; exact prime_108_669071)
    (by decide +kernel)

theorem prime_185_407829 : Nat.Prime 39018688486359781262819076475034947989428391381343407829 :=
  prime_of_pred 2 185 [(49768823580217843135881665866529244456037, 1)]
    (by simp only [List.forall_mem_cons, List.not_mem_nil, false_imp_iff, implies_true, and_true]; exact prime_136_456037)
    (by decide +kernel)

theorem prime_222_562187 : Nat.Prime 6739986666787659948666753771754907668409286105635143120275902562187 :=
  prime_of_succ 2 6739986666787659948666753771754907668409286105635143120275902562184
    6739986666787659948666753771754907668409286105635143120275902562185 222 [(39018688486359781262819076475034947989428391381343407829, 1)]
    (by simp only [List.forall_mem_cons, List.not_mem_nil, false_imp_iff, implies_true, and_true]; exact prime_185_407829)
    (by decide +kernel)

theorem prime_1471 : Nat.Prime 1471 := by norm_num

theorem prime_1135613 : Nat.Prime 1135613 :=
  prime_of_pred 2 21 [(1471, 1)]
    (by simp only [List.forall_mem_cons, List.not_mem_nil, false_imp_iff, implies_true, and_true]; exact prime_1471)
    (by decide +kernel)

theorem prime_5113 : Nat.Prime 5113 := by norm_num

theorem prime_41_244151 : Nat.Prime 2032236244151 :=
  prime_of_pred 2 41 [(1135613, 1), (5113, 1)]
    (by simp only [List.forall_mem_cons, List.not_mem_nil, false_imp_iff, implies_true, and_true]; exact ⟨prime_1135613, prime_5113⟩)
    (by decide +kernel)

theorem prime_78_475253 : Nat.Prime 297581916939273464475253 :=
  prime_of_pred 2 78 [(2032236244151, 1)]
    (by simp only [List.forall_mem_cons, List.not_mem_nil, false_imp_iff, implies_true, and_true]; exact prime_41_244151)
    (by decide +kernel)

theorem prime_115_517843 : Nat.Prime 22645347980446549950250344634517843 :=
  prime_of_pred 2 115 [(297581916939273464475253, 1)]
    (by simp only [List.forall_mem_cons, List.not_mem_nil, false_imp_iff, implies_true, and_true]; exact prime_78_475253)
    (by decide +kernel)

theorem prime_51157 : Nat.Prime 51157 := by norm_num

theorem prime_28697 : Nat.Prime 28697 := by norm_num

theorem prime_52_331633 : Nat.Prime 3320452728331633 :=
  prime_of_pred 2 52 [(51157, 1), (28697, 1)]
    (by simp only [List.forall_mem_cons, List.not_mem_nil, false_imp_iff, implies_true, and_true]; exact ⟨prime_51157, prime_28697⟩)
    (by decide +kernel)

theorem prime_81_511251 : Nat.Prime 2151858718037429125511251 :=
  prime_of_succ 2 2151858718037429125511248
    2151858718037429125511249 81 [(3320452728331633, 1)]
    (by simp only [List.forall_mem_cons, List.not_mem_nil, false_imp_iff, implies_true, and_true]; exact prime_52_331633)
    (by decide +kernel)

theorem prime_235_332681 : Nat.Prime 30510656070643106182115999270826633842178510774222732476374386585332681 :=
  prime_of_pred 2 235 [(22645347980446549950250344634517843, 1), (2151858718037429125511251, 1)]
    (by simp only [List.forall_mem_cons, List.not_mem_nil, false_imp_iff, implies_true, and_true]; exact ⟨prime_115_517843, prime_81_511251⟩)
    (by decide +kernel)

theorem prime_251_301239 : Nat.Prime 3618502788666131106986593281521497120414687020801267626233049500247285301239 :=
  prime_of_pred 2 251 [(30510656070643106182115999270826633842178510774222732476374386585332681, 1)]
    (by simp only [List.forall_mem_cons, List.not_mem_nil, false_imp_iff, implies_true, and_true]; exact prime_235_332681)
    (by decide +kernel)

theorem prime_991 : Nat.Prime 991 := by norm_num

theorem prime_103 : Nat.Prime 103 := by norm_num

theorem prime_8574133 : Nat.Prime 8574133 :=
  prime_of_pred 2 24 [(991, 1), (103, 1)]
    (by simp only [List.forall_mem_cons, List.not_mem_nil, false_imp_iff, implies_true, and_true]; exact ⟨prime_991, prime_103⟩)
    (by decide +kernel)

theorem prime_127 : Nat.Prime 127 := by norm_num

theorem prime_51_386763 : Nat.Prime 1919519569386763 :=
  prime_of_pred 2 51 [(8574133, 1), (127, 1)]
    (by simp only [List.forall_mem_cons, List.not_mem_nil, false_imp_iff, implies_true, and_true]; exact ⟨prime_8574133, prime_127⟩)
    (by decide +kernel)

theorem prime_569003 : Nat.Prime 569003 := by norm_num

theorem prime_32_320623 : Nat.Prime 2773320623 :=
  prime_of_pred 2 32 [(569003, 1)]
    (by simp only [List.forall_mem_cons, List.not_mem_nil, false_imp_iff, implies_true, and_true]; exact prime_569003)
    (by decide +kernel)

theorem prime_37_336199 : Nat.Prime 72106336199 :=
  prime_of_pred 2 37 [(2773320623, 1)]
    (by simp only [List.forall_mem_cons, List.not_mem_nil, false_imp_iff, implies_true, and_true]; exact prime_32_320623)
    (by decide +kernel)

theorem prime_116_864801 : Nat.Prime 75445702479781427272750846543864801 :=
  prime_of_pred 2 116 [(1919519569386763, 1), (72106336199, 1)]
    (by simp only [List.forall_mem_cons, List.not_mem_nil, false_imp_iff, implies_true, and_true]; exact ⟨prime_51_386763, prime_37_336199⟩)
    (by decide +kernel)

theorem prime_430751 : Nat.Prime 430751 := by norm_num

theorem prime_4153 : Nat.Prime 4153 := by norm_num

theorem prime_55_855353 : Nat.Prime 31757755568855353 :=
  prime_of_pred 2 55 [(430751, 1), (4153, 1)]
    (by simp only [List.forall_mem_cons, List.not_mem_nil, false_imp_iff, implies_true, and_true]; exact ⟨prime_430751, prime_4153⟩)
    (by decide +kernel)

theorem prime_236_340907 : Nat.Prime 74058212732561358302231226437062788676166966415465897661863160754340907 :=
  prime_of_pred 2 236 [(75445702479781427272750846543864801, 1), (31757755568855353, 1)]
    (by simp only [List.forall_mem_cons, List.not_mem_nil, false_imp_iff, implies_true, and_true]; exact ⟨prime_116_864801, prime_55_855353⟩)
    (by decide +kernel)

theorem prime_255_819949 : Nat.Prime 57896044618658097711785492504343953926634992332820282019728792003956564819949 :=
  prime_of_pred 2 255 [(74058212732561358302231226437062788676166966415465897661863160754340907, 1)]
    (by simp only [List.forall_mem_cons, List.not_mem_nil, false_imp_iff, implies_true, and_true]; exact prime_236_340907)
    (by decide +kernel)

theorem prime_33203 : Nat.Prime 33203 := by norm_num

theorem prime_1992181 : Nat.Prime 1992181 :=
  prime_of_pred 2 21 [(33203, 1)]
    (by simp only [List.forall_mem_cons, List.not_mem_nil, false_imp_iff, implies_true, and_true]; exact prime_33203)
    (by decide +kernel)

theorem prime_460231 : Nat.Prime 460231 := by norm_num

theorem prime_61_216901 : Nat.Prime 1850138763445216901 :=
  prime_of_pred 2 61 [(1992181, 1), (460231, 1)]
    (by simp only [List.forall_mem_cons, List.not_mem_nil, false_imp_iff, implies_true, and_true]; exact ⟨prime_1992181, prime_460231⟩)
    (by decide +kernel)

theorem prime_75_206551 : Nat.Prime 21369102717792255206551 :=
  prime_of_pred 2 75 [(1850138763445216901, 1)]
    (by simp only [List.forall_mem_cons, List.not_mem_nil, false_imp_iff, implies_true, and_true]; exact prime_61_216901)
    (by decide +kernel)

theorem prime_49939 : Nat.Prime 49939 := by norm_num

theorem prime_8889143 : Nat.Prime 8889143 :=
  prime_of_pred 2 24 [(49939, 1)]
    (by simp only [List.forall_mem_cons, List.not_mem_nil, false_imp_iff, implies_true, and_true]; exact prime_49939)
    (by decide +kernel)

theorem prime_38_751931 : Nat.Prime 208983751931 :=
  prime_of_pred 2 38 [(8889143, 1)]
    (by simp only [List.forall_mem_cons, List.not_mem_nil, false_imp_iff, implies_true, and_true]; exact prime_8889143)
    (by decide +kernel)

theorem prime_52_713967 : Nat.Prime 2295895498713967 :=
  prime_of_pred 2 52 [(208983751931, 1)]
    (by simp only [List.forall_mem_cons, List.not_mem_nil, false_imp_iff, implies_true, and_true]; exact prime_38_751931)
    (by decide +kernel)

theorem prime_154_137803 : Nat.Prime 14133936265457239151185988243933396434546137803 :=
  prime_of_pred 2 154 [(21369102717792255206551, 1), (2295895498713967, 1)]
    (by simp only [List.forall_mem_cons, List.not_mem_nil, false_imp_iff, implies_true, and_true]; exact ⟨prime_75_206551, prime_52_713967⟩)
    (by decide +kernel)

theorem prime_203_032877 : Nat.Prime 9979652910506516194281768539460026990412783060843959605032877 :=
  prime_of_pred 2 203 [(14133936265457239151185988243933396434546137803, 1)]
    (by simp only [List.forall_mem_cons, List.not_mem_nil, false_imp_iff, implies_true, and_true]; exact prime_154_137803)
    (by decide +kernel)

theorem prime_209_301391 : Nat.Prime 698575703735456133599723797762201889328894814259077172352301391 :=
  prime_of_pred 2 209 [(9979652910506516194281768539460026990412783060843959605032877, 1)]
    (by simp only [List.forall_mem_cons, List.not_mem_nil, false_imp_iff, implies_true, and_true]; exact prime_203_032877)
    (by decide +kernel)

theorem prime_286_688247 : Nat.Prime 73772877462174271275190544236719752617642791980199852706432606976654958697962983688247 :=
  prime_of_pred 2 286 [(698575703735456133599723797762201889328894814259077172352301391, 1)]
    (by simp only [List.forall_mem_cons, List.not_mem_nil, false_imp_iff, implies_true, and_true]; exact prime_209_301391)
    (by decide +kernel)

theorem prime_382_576599 : Nat.Prime 9850501549098619803069760025035903451269934817616361666987073351061430442874302652853566563721228910201656997576599 :=
  prime_of_succ 3 9850501549098619803069760025035903451269934817616361666987073351061430442874302652853566563721228910201656997576597
    9850501549098619803069760025035903451269934817616361666987073351061430442874302652853566563721228910201656997576598 382 [(73772877462174271275190544236719752617642791980199852706432606976654958697962983688247, 1)]
    (by simp only [List.forall_mem_cons, List.not_mem_nil, false_imp_iff, implies_true, and_true]; exact prime_286_688247)
    (by decide +kernel)

theorem prime_15661 : Nat.Prime 15661 := by norm_num

theorem prime_983 : Nat.Prime 983 := by norm_num

theorem prime_923685781 : Nat.Prime 923685781 :=
  prime_of_pred 2 30 [(15661, 1), (983, 1)]
    (by simp only [List.forall_mem_cons, List.not_mem_nil, false_imp_iff, implies_true, and_true]; exact ⟨prime_15661, prime_983⟩)
    (by decide +kernel)

theorem prime_58_115553 : Nat.Prime 156765911253115553 :=
  prime_of_pred 2 58 [(923685781, 1)]
    (by simp only [List.forall_mem_cons, List.not_mem_nil, false_imp_iff, implies_true, and_true]; exact prime_923685781)
    (by decide +kernel)

theorem prime_95_566979 : Nat.Prime 21561596637519154364530566979 :=
  prime_of_pred 2 95 [(156765911253115553, 1)]
    (by simp only [List.forall_mem_cons, List.not_mem_nil, false_imp_iff, implies_true, and_true]; exact prime_58_115553)
    (by decide +kernel)

theorem prime_187_230293 : Nat.Prime 140731847223860698993672433903061203299016858671554230293 :=
  prime_of_pred 2 187 [(21561596637519154364530566979, 1)]
    (by simp only [List.forall_mem_cons, List.not_mem_nil, false_imp_iff, implies_true, and_true]; exact prime_95_566979)
    (by decide +kernel)

theorem prime_265_232837 : Nat.Prime 34275585315876169535825731013955432020686980960977076060073381689104960386232837 :=
  prime_of_pred 2 265 [(140731847223860698993672433903061203299016858671554230293, 1)]
    (by simp only [List.forall_mem_cons, List.not_mem_nil, false_imp_iff, implies_true, and_true]; exact prime_187_230293)
    (by decide +kernel)

theorem prime_383_153221 : Nat.Prime 19701003098197239606139520050071806902539869635232723333974146702122860885748605305707133127442457820403313995153221 :=
  prime_of_pred 2 383 [(34275585315876169535825731013955432020686980960977076060073381689104960386232837, 1)]
    (by simp only [List.forall_mem_cons, List.not_mem_nil, false_imp_iff, implies_true, and_true]; exact prime_265_232837)
    (by decide +kernel)

theorem prime_482539 : Nat.Prime 482539 := by norm_num

theorem prime_33_096597 : Nat.Prime 5773096597 :=
  prime_of_pred 2 33 [(482539, 1)]
    (by simp only [List.forall_mem_cons, List.not_mem_nil, false_imp_iff, implies_true, and_true]; exact prime_482539)
    (by decide +kernel)

theorem prime_63_343577 : Nat.Prime 8732134251795343577 :=
  prime_of_pred 2 63 [(5773096597, 1)]
    (by simp only [List.forall_mem_cons, List.not_mem_nil, false_imp_iff, implies_true, and_true]; exact prime_33_096597)
    (by decide +kernel)

theorem prime_270973 : Nat.Prime 270973 := by norm_num

theorem prime_401 : Nat.Prime 401 := by norm_num

theorem prime_49_358651 : Nat.Prime 320552943358651 :=
  prime_of_pred 2 49 [(270973, 1), (401, 1)]
    (by simp only [List.forall_mem_cons, List.not_mem_nil, false_imp_iff, implies_true, and_true]; exact ⟨prime_270973, prime_401⟩)
    (by decide +kernel)

theorem prime_161_863651 : Nat.Prime 2125820563389437533390243893834597846757304863651 :=
  prime_of_pred 3 161 [(8732134251795343577, 1), (320552943358651, 1)]
    (by simp only [List.forall_mem_cons, List.not_mem_nil, false_imp_iff, implies_true, and_true]; exact ⟨prime_63_343577, prime_49_358651⟩)
    (by decide +kernel)

theorem prime_73 : Nat.Prime 73 := by norm_num

theorem prime_41 : Nat.Prime 41 := by norm_num

theorem prime_11 : Nat.Prime 11 := by norm_num

theorem prime_16132271 : Nat.Prime 16132271 :=
  prime_of_pred 2 24 [(73, 1), (41, 1), (11, 1)]
    (by simp only [List.forall_mem_cons, List.not_mem_nil, false_imp_iff, implies_true, and_true]; exact ⟨prime_73, prime_41, prime_11⟩)
    (by decide +kernel)

theorem prime_45_322757 : Nat.Prime 32119932322757 :=
  prime_of_pred 2 45 [(16132271, 1)]
    (by simp only [List.forall_mem_cons, List.not_mem_nil, false_imp_iff, implies_true, and_true]; exact prime_16132271)
    (by decide +kernel)

theorem prime_71_034121 : Nat.Prime 2278882217556458034121 :=
  prime_of_pred 2 71 [(32119932322757, 1)]
    (by simp only [List.forall_mem_cons, List.not_mem_nil, false_imp_iff, implies_true, and_true]; exact prime_45_322757)
    (by decide +kernel)

theorem prime_102_959681 : Nat.Prime 3655725065508797181674078959681 :=
  prime_of_succ 7 1218575021836265727224692986559
    1218575021836265727224692986560 102 [(2278882217556458034121, 1)]
    (by simp only [List.forall_mem_cons, List.not_mem_nil, false_imp_iff, implies_true, and_true]; exact prime_71_034121)
    (by decide +kernel)

theorem prime_414_472367 : Nat.Prime 42307582002575910332922579714097346549017899709713998034217522897561970639123926132812109468141778230245837569601494931472367 :=
  prime_of_succ 5 21153791001287955166461289857048673274508949854856999017108761448780985319561963066406054734070889115122918784800747465736182
    21153791001287955166461289857048673274508949854856999017108761448780985319561963066406054734070889115122918784800747465736183 414 [(2125820563389437533390243893834597846757304863651, 1), (3655725065508797181674078959681, 1)]
    (by simp only [List.forall_mem_cons, List.not_mem_nil, false_imp_iff, implies_true, and_true]; exact ⟨prime_161_863651, prime_102_959681⟩)
    (by decide +kernel)

theorem prime_64007 : Nat.Prime 64007 := by norm_num

theorem prime_1280141 : Nat.Prime 1280141 :=
  prime_of_pred 2 21 [(64007, 1)]
    (by simp only [List.forall_mem_cons, List.not_mem_nil, false_imp_iff, implies_true, and_true]; exact prime_64007)
    (by decide +kernel)

theorem prime_7680847 : Nat.Prime 7680847 :=
  prime_of_pred 2 23 [(1280141, 1)]
    (by simp only [List.forall_mem_cons, List.not_mem_nil, false_imp_iff, implies_true, and_true]; exact prime_1280141)
    (by decide +kernel)

theorem prime_35_181981 : Nat.Prime 17973181981 :=
  prime_of_pred 2 35 [(7680847, 1)]
    (by simp only [List.forall_mem_cons, List.not_mem_nil, false_imp_iff, implies_true, and_true]; exact prime_7680847)
    (by decide +kernel)

theorem prime_68_074913 : Nat.Prime 294239141080058074913 :=
  prime_of_pred 2 68 [(17973181981, 1)]
    (by simp only [List.forall_mem_cons, List.not_mem_nil, false_imp_iff, implies_true, and_true]; exact prime_35_181981)
    (by decide +kernel)

theorem prime_72_898957 : Nat.Prime 3530869692960696898957 :=
  prime_of_pred 2 72 [(294239141080058074913, 1)]
    (by simp only [List.forall_mem_cons, List.not_mem_nil, false_imp_iff, implies_true, and_true]; exact prime_68_074913)
    (by decide +kernel)

theorem prime_82_186461 : Nat.Prime 2754078360509343581186461 :=
  prime_of_pred 2 82 [(3530869692960696898957, 1)]
    (by simp only [List.forall_mem_cons, List.not_mem_nil, false_imp_iff, implies_true, and_true]; exact prime_72_898957)
    (by decide +kernel)

theorem prime_128_853901 : Nat.Prime 235154966203494181258725400230659853901 :=
  prime_of_pred 2 128 [(2754078360509343581186461, 1)]
    (by simp only [List.forall_mem_cons, List.not_mem_nil, false_imp_iff, implies_true, and_true]; exact prime_82_186461)
    (by decide +kernel)

theorem prime_224_234451 : Nat.Prime 15440736922612396830442167363042573617952104942443175389064221234451 :=
  prime_of_pred 2 224 [(235154966203494181258725400230659853901, 1)]
    (by simp only [List.forall_mem_cons, List.not_mem_nil, false_imp_iff, implies_true, and_true]; exact prime_128_853901)
    (by decide +kernel)

theorem prime_227_813411 : Nat.Prime 185288843071348761965306008356510883415425259309318104668770654813411 :=
  prime_of_succ 2 185288843071348761965306008356510883415425259309318104668770654813408
    185288843071348761965306008356510883415425259309318104668770654813409 227 [(15440736922612396830442167363042573617952104942443175389064221234451, 1)]
    (by simp only [List.forall_mem_cons, List.not_mem_nil, false_imp_iff, implies_true, and_true]; exact prime_224_234451)
    (by decide +kernel)

theorem prime_409_613791 : Nat.Prime 719394622745421091089840400872525663113614151805232267488361572993322776263358729216979973314860476689214028831419227613791 :=
  prime_of_succ 3 719394622745421091089840400872525663113614151805232267488361572993322776263358729216979973314860476689214028831419227613789
    719394622745421091089840400872525663113614151805232267488361572993322776263358729216979973314860476689214028831419227613790 409 [(185288843071348761965306008356510883415425259309318104668770654813411, 1)]
    (by simp only [List.forall_mem_cons, List.not_mem_nil, false_imp_iff, implies_true, and_true]; exact prime_227_813411)
    (by decide +kernel)

theorem prime_506_466239 : Nat.Prime 115584551120194802582534698260395225236891084660279253256237598652773827845461611868981674984197443342155447053331776300463395541482298016779600422466239 :=
  prime_of_pred 2 506 [(719394622745421091089840400872525663113614151805232267488361572993322776263358729216979973314860476689214028831419227613791, 1)]
    (by simp only [List.forall_mem_cons, List.not_mem_nil, false_imp_iff, implies_true, and_true]; exact prime_409_613791)
    (by decide +kernel)

theorem prime_511_041861 : Nat.Prime 6703903964971298549787012499102923063739682910296196688861780721860882015036773488400937149083451713845015929093243025426876941405973284973216824503041861 :=
  prime_of_succ 2 6703903964971298549787012499102923063739682910296196688861780721860882015036773488400937149083451713845015929093243025426876941405973284973216824503041858
    6703903964971298549787012499102923063739682910296196688861780721860882015036773488400937149083451713845015929093243025426876941405973284973216824503041859 511 [(115584551120194802582534698260395225236891084660279253256237598652773827845461611868981674984197443342155447053331776300463395541482298016779600422466239, 1)]
    (by simp only [List.forall_mem_cons, List.not_mem_nil, false_imp_iff, implies_true, and_true]; exact prime_506_466239)
    (by decide +kernel)

theorem prime_2 : Nat.Prime 2 := by norm_num

theorem prime_521_057151 : Nat.Prime 6864797660130609714981900799081393217269435300143305409394463459185543183397656052122559640661454554977296311391480858037121987999716643812574028291115057151 :=
  prime_of_succ 3 6864797660130609714981900799081393217269435300143305409394463459185543183397656052122559640661454554977296311391480858037121987999716643812574028291115057149
    6864797660130609714981900799081393217269435300143305409394463459185543183397656052122559640661454554977296311391480858037121987999716643812574028291115057150 522 [(2, 521)]
    (by simp only [List.forall_mem_cons, List.not_mem_nil, false_imp_iff, implies_true, and_true]; exact prime_2)
    (by decide +kernel)

end Verif.Prime
