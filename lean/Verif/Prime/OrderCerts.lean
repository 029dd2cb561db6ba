import Verif.Prime.Certs

/-!
# The orders of the base points are prime

Primality certificates (chains of Pocklington and Morrison steps), found outside Lean and
checked by the kernel.
-/

namespace Verif.Prime

theorem prime_336113 : Nat.Prime 336113 := by norm_num

theorem prime_26889041 : Nat.Prime 26889041 :=
  prime_of_pred 2 25 [(336113, 1)]
    (by simp only [List.forall_mem_cons, List.not_mem_nil, false_imp_iff, implies_true, and_true]; exact prime_336113)
    (by decide +kernel)

theorem prime_39_483577 : Nat.Prime 380103483577 :=
  prime_of_pred 2 39 [(26889041, 1)]
    (by simp only [List.forall_mem_cons, List.not_mem_nil, false_imp_iff, implies_true, and_true]; exact prime_26889041)
    (by decide +kernel)

theorem prime_54_475329 : Nat.Prime 16444797113475329 :=
  prime_of_pred 2 54 [(380103483577, 1)]
    (by simp only [List.forall_mem_cons, List.not_mem_nil, false_imp_iff, implies_true, and_true]; exact prime_39_483577)
    (by decide +kernel)

theorem prime_464909 : Nat.Prime 464909 := by norm_num

theorem prime_36_855739 : Nat.Prime 62707855739 :=
  prime_of_pred 2 36 [(464909, 1)]
    (by simp only [List.forall_mem_cons, List.not_mem_nil, false_imp_iff, implies_true, and_true]; exact prime_464909)
    (by decide +kernel)

theorem prime_114_092281 : Nat.Prime 12403365937452778821493785232092281 :=
  prime_of_pred 2 114 [(16444797113475329, 1), (62707855739, 1)]
    (by simp only [List.forall_mem_cons, List.not_mem_nil, false_imp_iff, implies_true, and_true]; exact ⟨prime_54_475329, prime_36_855739⟩)
    (by decide +kernel)

theorem prime_220_417407 : Nat.Prime 1684996666696914987166688442938726735569737456760058294185521417407 :=
  prime_of_pred 2 220 [(12403365937452778821493785232092281, 1)]
    (by simp only [List.forall_mem_cons, List.not_mem_nil, false_imp_iff, implies_true, and_true]; exact prime_114_092281)
    (by decide +kernel)

theorem prime_21143 : Nat.Prime 21143 := by norm_num

theorem prime_1373 : Nat.Prime 1373 := by norm_num

theorem prime_522528103 : Nat.Prime 522528103 :=
  prime_of_pred 2 29 [(21143, 1), (1373, 1)]
    (by simp only [List.forall_mem_cons, List.not_mem_nil, false_imp_iff, implies_true, and_true]; exact ⟨prime_21143, prime_1373⟩)
    (by decide +kernel)

theorem prime_57_553477 : Nat.Prime 95338435633553477 :=
  prime_of_pred 2 57 [(522528103, 1)]
    (by simp only [List.forall_mem_cons, List.not_mem_nil, false_imp_iff, implies_true, and_true]; exact prime_522528103)
    (by decide +kernel)

theorem prime_60_427817 : Nat.Prime 762707485068427817 :=
  prime_of_pred 2 60 [(95338435633553477, 1)]
    (by simp only [List.forall_mem_cons, List.not_mem_nil, false_imp_iff, implies_true, and_true]; exact prime_57_553477)
    (by decide +kernel)

theorem prime_5171 : Nat.Prime 5171 := by norm_num

theorem prime_6153491 : Nat.Prime 6153491 :=
  prime_of_pred 2 23 [(5171, 1)]
    (by simp only [List.forall_mem_cons, List.not_mem_nil, false_imp_iff, implies_true, and_true]; exact prime_5171)
    (by decide +kernel)

theorem prime_196911713 : Nat.Prime 196911713 :=
  prime_of_pred 2 28 [(6153491, 1)]
    (by simp only [List.forall_mem_cons, List.not_mem_nil, false_imp_iff, implies_true, and_true]; exact prime_6153491)
    (by decide +kernel)

theorem prime_38_071423 : Nat.Prime 176039071423 :=
  prime_of_pred 2 38 [(196911713, 1)]
    (by simp only [List.forall_mem_cons, List.not_mem_nil, false_imp_iff, implies_true, and_true]; exact prime_196911713)
    (by decide +kernel)

theorem prime_46_570059 : Nat.Prime 43305611570059 :=
  prime_of_pred 2 46 [(176039071423, 1)]
    (by simp only [List.forall_mem_cons, List.not_mem_nil, false_imp_iff, implies_true, and_true]; exact prime_38_071423)
    (by decide +kernel)

theorem prime_58_607681 : Nat.Prime 152435752726607681 :=
  prime_of_pred 2 58 [(43305611570059, 1)]
    (by simp only [List.forall_mem_cons, List.not_mem_nil, false_imp_iff, implies_true, and_true]; exact prime_46_570059)
    (by decide +kernel)

theorem prime_545087 : Nat.Prime 545087 := by norm_num

theorem prime_231503 : Nat.Prime 231503 := by norm_num

theorem prime_56_669153 : Nat.Prime 60171084739669153 :=
  prime_of_pred 2 56 [(545087, 1), (231503, 1)]
    (by simp only [List.forall_mem_cons, List.not_mem_nil, false_imp_iff, implies_true, and_true]; exact ⟨prime_545087, prime_231503⟩)
    (by decide +kernel)

theorem prime_249_975601 : Nat.Prime 904625697166532776746648320380374280092339035279495474023489261773642975601 :=
  prime_of_pred 2 249 [(762707485068427817, 1), (152435752726607681, 1), (60171084739669153, 1)]
    (by simp only [List.forall_mem_cons, List.not_mem_nil, false_imp_iff, implies_true, and_true]; exact ⟨prime_60_427817, prime_58_607681, prime_56_669153⟩)
    (by decide +kernel)

theorem prime_367 : Nat.Prime 367 := by norm_num

theorem prime_101 : Nat.Prime 101 := by norm_num

theorem prime_6301391 : Nat.Prime 6301391 :=
  prime_of_pred 2 23 [(367, 1), (101, 1)]
    (by simp only [List.forall_mem_cons, List.not_mem_nil, false_imp_iff, implies_true, and_true]; exact ⟨prime_367, prime_101⟩)
    (by decide +kernel)

theorem prime_428494589 : Nat.Prime 428494589 :=
  prime_of_pred 2 29 [(6301391, 1)]
    (by simp only [List.forall_mem_cons, List.not_mem_nil, false_imp_iff, implies_true, and_true]; exact prime_6301391)
    (by decide +kernel)

theorem prime_39_119279 : Nat.Prime 386502119279 :=
  prime_of_pred 2 39 [(428494589, 1)]
    (by simp only [List.forall_mem_cons, List.not_mem_nil, false_imp_iff, implies_true, and_true]; exact prime_428494589)
    (by decide +kernel)

theorem prime_46_973669 : Nat.Prime 35558194973669 :=
  prime_of_pred 2 46 [(386502119279, 1)]
    (by simp only [List.forall_mem_cons, List.not_mem_nil, false_imp_iff, implies_true, and_true]; exact prime_39_119279)
    (by decide +kernel)

theorem prime_51_630787 : Nat.Prime 1849026138630787 :=
  prime_of_succ 2 1849026138630784
    1849026138630785 51 [(35558194973669, 1)]
    (by simp only [List.forall_mem_cons, List.not_mem_nil, false_imp_iff, implies_true, and_true]; exact prime_46_973669)
    (by decide +kernel)

theorem prime_53_523149 : Nat.Prime 7396104554523149 :=
  prime_of_pred 2 53 [(1849026138630787, 1)]
    (by simp only [List.forall_mem_cons, List.not_mem_nil, false_imp_iff, implies_true, and_true]; exact prime_51_630787)
    (by decide +kernel)

theorem prime_89_040307 : Nat.Prime 415989025112655546518040307 :=
  prime_of_pred 2 89 [(7396104554523149, 1)]
    (by simp only [List.forall_mem_cons, List.not_mem_nil, false_imp_iff, implies_true, and_true]; exact prime_53_523149)
    (by decide +kernel)

theorem prime_118_121187 : Nat.Prime 274967663196021973118692602986121187 :=
  prime_of_pred 2 118 [(415989025112655546518040307, 1)]
    (by simp only [List.forall_mem_cons, List.not_mem_nil, false_imp_iff, implies_true, and_true]; exact prime_89_040307)
    (by decide +kernel)

theorem prime_234_665699 : Nat.Prime 27457161967136632372853627203548351065399521153702532326641964625665699 :=
  prime_of_pred 2 234 [(274967663196021973118692602986121187, 1)]
    (by simp only [List.forall_mem_cons, List.not_mem_nil, false_imp_iff, implies_true, and_true]; exact prime_118_121187)
    (by decide +kernel)

theorem prime_368_801471 : Nat.Prime 316451476133982902951354408411587749012783822205614291537617326465903759260427804068704616638813236230542801471 :=
  prime_of_succ 7 210967650755988601967569605607725166008522548137076194358411550977269172840285202712469744425875490820361867646
    210967650755988601967569605607725166008522548137076194358411550977269172840285202712469744425875490820361867647 368 [(27457161967136632372853627203548351065399521153702532326641964625665699, 1)]
    (by simp only [List.forall_mem_cons, List.not_mem_nil, false_imp_iff, implies_true, and_true]; exact prime_234_665699)
    (by decide +kernel)

theorem prime_380_047321 : Nat.Prime 2462625387274654950767440006258975862817483704404090416745738034557663054564649171262659326683244604346084081047321 :=
  prime_of_succ 3 2462625387274654950767440006258975862817483704404090416745738034557663054564649171262659326683244604346084081047319
    2462625387274654950767440006258975862817483704404090416745738034557663054564649171262659326683244604346084081047320 380 [(316451476133982902951354408411587749012783822205614291537617326465903759260427804068704616638813236230542801471, 1)]
    (by simp only [List.forall_mem_cons, List.not_mem_nil, false_imp_iff, implies_true, and_true]; exact prime_368_801471)
    (by decide +kernel)

theorem prime_4133 : Nat.Prime 4133 := by norm_num

theorem prime_619 : Nat.Prime 619 := by norm_num

theorem prime_311 : Nat.Prime 311 := by norm_num

theorem prime_44_344773 : Nat.Prime 13904599344773 :=
  prime_of_pred 3 44 [(4133, 1), (619, 1), (311, 1)]
    (by simp only [List.forall_mem_cons, List.not_mem_nil, false_imp_iff, implies_true, and_true]; exact ⟨prime_4133, prime_619, prime_311⟩)
    (by decide +kernel)

theorem prime_57_725759 : Nat.Prime 131342845410725759 :=
  prime_of_pred 2 57 [(13904599344773, 1)]
    (by simp only [List.forall_mem_cons, List.not_mem_nil, false_imp_iff, implies_true, and_true]; exact prime_44_344773)
    (by decide +kernel)

theorem prime_112_477037 : Nat.Prime 4868010057124911294296551654477037 :=
  prime_of_pred 2 112 [(131342845410725759, 1)]
    (by simp only [List.forall_mem_cons, List.not_mem_nil, false_imp_iff, implies_true, and_true]; exact prime_57_725759)
    (by decide +kernel)

theorem prime_149_393153 : Nat.Prime 592299861982871449195634528262215319398393153 :=
  prime_of_pred 2 149 [(4868010057124911294296551654477037, 1)]
    (by simp only [List.forall_mem_cons, List.not_mem_nil, false_imp_iff, implies_true, and_true]; exact prime_112_477037)
    (by decide +kernel)

theorem prime_172_522993 : Nat.Prime 3376384040438327312767543585515740988479041826522993 :=
  prime_of_pred 2 172 [(592299861982871449195634528262215319398393153, 1)]
    (by simp only [List.forall_mem_cons, List.not_mem_nil, false_imp_iff, implies_true, and_true]; exact prime_149_393153)
    (by decide +kernel)

theorem prime_251_556679 : Nat.Prime 2394768781123004469808382870696186422325158931040989687224220336205960556679 :=
  prime_of_pred 2 251 [(3376384040438327312767543585515740988479041826522993, 1)]
    (by simp only [List.forall_mem_cons, List.not_mem_nil, false_imp_iff, implies_true, and_true]; exact prime_172_522993)
    (by decide +kernel)

theorem prime_267_252253 : Nat.Prime 181015782627525661863876044430183339290714113279526328477904366773136146558252253 :=
  prime_of_pred 2 267 [(2394768781123004469808382870696186422325158931040989687224220336205960556679, 1)]
    (by simp only [List.forall_mem_cons, List.not_mem_nil, false_imp_iff, implies_true, and_true]; exact prime_251_556679)
    (by decide +kernel)

theorem prime_352_007093 : Nat.Prime 7005507114193524029414407471112866694107408372181827430432047949693881095742546770048184168812214569007093 :=
  prime_of_pred 2 352 [(181015782627525661863876044430183339290714113279526328477904366773136146558252253, 1)]
    (by simp only [List.forall_mem_cons, List.not_mem_nil, false_imp_iff, implies_true, and_true]; exact prime_267_252253)
    (by decide +kernel)

theorem prime_411_839289 : Nat.Prime 5288447750321988791615322464262168318627237463714249754277190328831105466135348245791335989419337099796002495788978276839289 :=
  prime_of_pred 2 411 [(7005507114193524029414407471112866694107408372181827430432047949693881095742546770048184168812214569007093, 1)]
    (by simp only [List.forall_mem_cons, List.not_mem_nil, false_imp_iff, implies_true, and_true]; exact prime_352_007093)
    (by decide +kernel)

theorem prime_62383 : Nat.Prime 62383 := by norm_num

theorem prime_50741 : Nat.Prime 50741 := by norm_num

theorem prime_50_522927 : Nat.Prime 653466511522927 :=
  prime_of_pred 2 50 [(62383, 1), (50741, 1)]
    (by simp only [List.forall_mem_cons, List.not_mem_nil, false_imp_iff, implies_true, and_true]; exact ⟨prime_62383, prime_50741⟩)
    (by decide +kernel)

theorem prime_70_266889 : Nat.Prime 614483313311515266889 :=
  prime_of_pred 2 70 [(653466511522927, 1)]
    (by simp only [List.forall_mem_cons, List.not_mem_nil, false_imp_iff, implies_true, and_true]; exact prime_50_522927)
    (by decide +kernel)

theorem prime_88_891063 : Nat.Prime 287317649704945062430891063 :=
  prime_of_succ 3 287317649704945062430891061
    287317649704945062430891062 88 [(614483313311515266889, 1)]
    (by simp only [List.forall_mem_cons, List.not_mem_nil, false_imp_iff, implies_true, and_true]; exact prime_70_266889)
    (by decide +kernel)

theorem prime_105_600197 : Nat.Prime 38829831087024505407285203600197 :=
  prime_of_succ 2 38829831087024505407285203600194
    38829831087024505407285203600195 105 [(287317649704945062430891063, 1)]
    (by simp only [List.forall_mem_cons, List.not_mem_nil, false_imp_iff, implies_true, and_true]; exact prime_88_891063)
    (by decide +kernel)

theorem prime_130_801667 : Nat.Prime 1094922722735633088935509210843875801667 :=
  prime_of_pred 2 130 [(38829831087024505407285203600197, 1)]
    (by simp only [List.forall_mem_cons, List.not_mem_nil, false_imp_iff, implies_true, and_true]; exact prime_105_600197)
    (by decide +kernel)

theorem prime_146_682801 : Nat.Prime 52994259780404641504478645804843588800682801 :=
  prime_of_pred 2 146 [(1094922722735633088935509210843875801667, 1)]
    (by simp only [List.forall_mem_cons, List.not_mem_nil, false_imp_iff, implies_true, and_true]; exact prime_130_801667)
    (by decide +kernel)

theorem prime_219_052891 : Nat.Prime 421249166674228746791672110734682167926895081980396304944335052891 :=
  prime_of_succ 2 421249166674228746791672110734682167926895081980396304944335052888
    421249166674228746791672110734682167926895081980396304944335052889 219 [(52994259780404641504478645804843588800682801, 1)]
    (by simp only [List.forall_mem_cons, List.not_mem_nil, false_imp_iff, implies_true, and_true]; exact prime_146_682801)
    (by decide +kernel)

theorem prime_173 : Nat.Prime 173 := by norm_num

theorem prime_4519453 : Nat.Prime 4519453 :=
  prime_of_pred 2 23 [(311, 1), (173, 1)]
    (by simp only [List.forall_mem_cons, List.not_mem_nil, false_imp_iff, implies_true, and_true]; exact ⟨prime_311, prime_173⟩)
    (by decide +kernel)

theorem prime_41_026483 : Nat.Prime 1601667026483 :=
  prime_of_pred 2 41 [(4519453, 1)]
    (by simp only [List.forall_mem_cons, List.not_mem_nil, false_imp_iff, implies_true, and_true]; exact prime_4519453)
    (by decide +kernel)

theorem prime_46_688559 : Nat.Prime 41643342688559 :=
  prime_of_pred 2 46 [(1601667026483, 1)]
    (by simp only [List.forall_mem_cons, List.not_mem_nil, false_imp_iff, implies_true, and_true]; exact prime_41_026483)
    (by decide +kernel)

theorem prime_74_396009 : Nat.Prime 10041822019293734396009 :=
  prime_of_pred 2 74 [(41643342688559, 1)]
    (by simp only [List.forall_mem_cons, List.not_mem_nil, false_imp_iff, implies_true, and_true]; exact prime_46_688559)
    (by decide +kernel)

theorem prime_77_752109 : Nat.Prime 120501864231524812752109 :=
  prime_of_pred 2 77 [(10041822019293734396009, 1)]
    (by simp only [List.forall_mem_cons, List.not_mem_nil, false_imp_iff, implies_true, and_true]; exact prime_74_396009)
    (by decide +kernel)

theorem prime_24517 : Nat.Prime 24517 := by norm_num

theorem prime_42512479 : Nat.Prime 42512479 :=
  prime_of_pred 2 26 [(24517, 1)]
    (by simp only [List.forall_mem_cons, List.not_mem_nil, false_imp_iff, implies_true, and_true]; exact prime_24517)
    (by decide +kernel)

theorem prime_39_178053 : Nat.Prime 348092178053 :=
  prime_of_pred 2 39 [(42512479, 1)]
    (by simp only [List.forall_mem_cons, List.not_mem_nil, false_imp_iff, implies_true, and_true]; exact prime_42512479)
    (by decide +kernel)

theorem prime_55_081849 : Nat.Prime 21239192336081849 :=
  prime_of_pred 2 55 [(348092178053, 1)]
    (by simp only [List.forall_mem_cons, List.not_mem_nil, false_imp_iff, implies_true, and_true]; exact prime_39_178053)
    (by decide +kernel)

theorem prime_173_018227 : Nat.Prime 9779579430137469602537202763911525536092639781018227 :=
  prime_of_pred 2 173 [(120501864231524812752109, 1), (21239192336081849, 1)]
    (by simp only [List.forall_mem_cons, List.not_mem_nil, false_imp_iff, implies_true, and_true]; exact ⟨prime_77_752109, prime_55_081849⟩)
    (by decide +kernel)

theorem prime_180_734051 : Nat.Prime 1466936914520620440380580414586728830413895967152734051 :=
  prime_of_pred 2 180 [(9779579430137469602537202763911525536092639781018227, 1)]
    (by simp only [List.forall_mem_cons, List.not_mem_nil, false_imp_iff, implies_true, and_true]; exact prime_173_018227)
    (by decide +kernel)

theorem prime_253_250989 : Nat.Prime 7237005577332262213973186563042994240857116359379907606001950938285454250989 :=
  prime_of_succ 2 7237005577332262213973186563042994240857116359379907606001950938285454250986
    7237005577332262213973186563042994240857116359379907606001950938285454250987 253 [(1466936914520620440380580414586728830413895967152734051, 1)]
    (by simp only [List.forall_mem_cons, List.not_mem_nil, false_imp_iff, implies_true, and_true]; exact prime_180_734051)
    (by decide +kernel)

theorem prime_128111 : Nat.Prime 128111 := by norm_num

theorem prime_153733201 : Nat.Prime 153733201 :=
  prime_of_pred 2 28 [(128111, 1)]
    (by simp only [List.forall_mem_cons, List.not_mem_nil, false_imp_iff, implies_true, and_true]; exact prime_128111)
    (by decide +kernel)

theorem prime_51_410901 : Nat.Prime 1618948966410901 :=
  prime_of_pred 2 51 [(153733201, 1)]
    (by simp only [List.forall_mem_cons, List.not_mem_nil, false_imp_iff, implies_true, and_true]; exact prime_153733201)
    (by decide +kernel)

theorem prime_57_406673 : Nat.Prime 119802223514406673 :=
  prime_of_succ 5 59901111757203335
    59901111757203336 57 [(1618948966410901, 1)]
    (by simp only [List.forall_mem_cons, List.not_mem_nil, false_imp_iff, implies_true, and_true]; exact prime_51_410901)
    (by decide +kernel)

theorem prime_59_626693 : Nat.Prime 479208894057626693 :=
  prime_of_pred 2 59 [(119802223514406673, 1)]
    (by simp only [List.forall_mem_cons, List.not_mem_nil, false_imp_iff, implies_true, and_true]; exact prime_57_406673)
    (by decide +kernel)

theorem prime_88_071069 : Nat.Prime 289450259140102639080071069 :=
  prime_of_pred 2 88 [(479208894057626693, 1)]
    (by simp only [List.forall_mem_cons, List.not_mem_nil, false_imp_iff, implies_true, and_true]; exact prime_59_626693)
    (by decide +kernel)

theorem prime_116_943361 : Nat.Prime 60934327561511008916380516463943361 :=
  prime_of_pred 2 116 [(289450259140102639080071069, 1)]
    (by simp only [List.forall_mem_cons, List.not_mem_nil, false_imp_iff, implies_true, and_true]; exact prime_88_071069)
    (by decide +kernel)

theorem prime_78779 : Nat.Prime 78779 := by norm_num

theorem prime_1418023 : Nat.Prime 1418023 :=
  prime_of_pred 2 21 [(78779, 1)]
    (by simp only [List.forall_mem_cons, List.not_mem_nil, false_imp_iff, implies_true, and_true]; exact prime_78779)
    (by decide +kernel)

theorem prime_124471 : Nat.Prime 124471 := by norm_num

theorem prime_45_753289 : Nat.Prime 24004372753289 :=
  prime_of_pred 2 45 [(1418023, 1), (124471, 1)]
    (by simp only [List.forall_mem_cons, List.not_mem_nil, false_imp_iff, implies_true, and_true]; exact ⟨prime_1418023, prime_124471⟩)
    (by decide +kernel)

theorem prime_60_985889 : Nat.Prime 715138273065985889 :=
  prime_of_pred 2 60 [(24004372753289, 1)]
    (by simp only [List.forall_mem_cons, List.not_mem_nil, false_imp_iff, implies_true, and_true]; exact prime_45_753289)
    (by decide +kernel)

theorem prime_97_689063 : Nat.Prime 138897064261279495097010689063 :=
  prime_of_pred 2 97 [(715138273065985889, 1)]
    (by simp only [List.forall_mem_cons, List.not_mem_nil, false_imp_iff, implies_true, and_true]; exact prime_60_985889)
    (by decide +kernel)

theorem prime_354_780419 : Nat.Prime 23978163906116309806674273528410869974800147232588444606571758029980837570993229680578504611504832152780419 :=
  prime_of_pred 2 354 [(60934327561511008916380516463943361, 1), (138897064261279495097010689063, 1)]
    (by simp only [List.forall_mem_cons, List.not_mem_nil, false_imp_iff, implies_true, and_true]; exact ⟨prime_116_943361, prime_97_689063⟩)
    (by decide +kernel)

theorem prime_381_007447 : Nat.Prime 2462625387274654950767440006258975862817483704404090416746934574041288984234680883008327183083615266784870011007447 :=
  prime_of_pred 2 381 [(23978163906116309806674273528410869974800147232588444606571758029980837570993229680578504611504832152780419, 1)]
    (by simp only [List.forall_mem_cons, List.not_mem_nil, false_imp_iff, implies_true, and_true]; exact prime_354_780419)
    (by decide +kernel)

theorem prime_883 : Nat.Prime 883 := by norm_num

theorem prime_224555731 : Nat.Prime 224555731 :=
  prime_of_pred 2 28 [(883, 1), (173, 1)]
    (by simp only [List.forall_mem_cons, List.not_mem_nil, false_imp_iff, implies_true, and_true]; exact ⟨prime_883, prime_173⟩)
    (by decide +kernel)

theorem prime_1303 : Nat.Prime 1303 := by norm_num

theorem prime_60_587991 : Nat.Prime 749757069347587991 :=
  prime_of_pred 2 60 [(224555731, 1), (1303, 1)]
    (by simp only [List.forall_mem_cons, List.not_mem_nil, false_imp_iff, implies_true, and_true]; exact ⟨prime_224555731, prime_1303⟩)
    (by decide +kernel)

theorem prime_105_350971 : Nat.Prime 21582821946944854778633499350971 :=
  prime_of_pred 2 105 [(749757069347587991, 1)]
    (by simp only [List.forall_mem_cons, List.not_mem_nil, false_imp_iff, implies_true, and_true]; exact prime_60_587991)
    (by decide +kernel)

theorem prime_141_793911 : Nat.Prime 1467130959627254143726085375859126826793911 :=
  prime_of_pred 2 141 [(21582821946944854778633499350971, 1)]
    (by simp only [List.forall_mem_cons, List.not_mem_nil, false_imp_iff, implies_true, and_true]; exact prime_105_350971)
    (by decide +kernel)

theorem prime_158_174403 : Nat.Prime 259362345304825242036184824915128158694281174403 :=
  prime_of_pred 2 158 [(1467130959627254143726085375859126826793911, 1)]
    (by simp only [List.forall_mem_cons, List.not_mem_nil, false_imp_iff, implies_true, and_true]; exact prime_141_793911)
    (by decide +kernel)

theorem prime_161_046417 : Nat.Prime 1556174071828951452217108949490768952165687046417 :=
  prime_of_succ 3 1556174071828951452217108949490768952165687046415
    1556174071828951452217108949490768952165687046416 161 [(259362345304825242036184824915128158694281174403, 1)]
    (by simp only [List.forall_mem_cons, List.not_mem_nil, false_imp_iff, implies_true, and_true]; exact prime_158_174403)
    (by decide +kernel)

theorem prime_164_371337 : Nat.Prime 12449392574631611617736871595926151617325496371337 :=
  prime_of_pred 2 164 [(1556174071828951452217108949490768952165687046417, 1)]
    (by simp only [List.forall_mem_cons, List.not_mem_nil, false_imp_iff, implies_true, and_true]; exact prime_161_046417)
    (by decide +kernel)

theorem prime_279_471463 : Nat.Prime 518814721046350592855056622974095979443952345219920546439772194066760238412125471463 :=
  prime_of_pred 2 279 [(12449392574631611617736871595926151617325496371337, 1)]
    (by simp only [List.forall_mem_cons, List.not_mem_nil, false_imp_iff, implies_true, and_true]; exact prime_164_371337)
    (by decide +kernel)

theorem prime_299_396407 : Nat.Prime 794313638957499499270577370679308530064362143769221875328034265471314993172778690817396407 :=
  prime_of_succ 3 794313638957499499270577370679308530064362143769221875328034265471314993172778690817396405
    794313638957499499270577370679308530064362143769221875328034265471314993172778690817396406 299 [(518814721046350592855056622974095979443952345219920546439772194066760238412125471463, 1)]
    (by simp only [List.forall_mem_cons, List.not_mem_nil, false_imp_iff, implies_true, and_true]; exact prime_279_471463)
    (by decide +kernel)

theorem prime_381_911201 : Nat.Prime 2462625387274654950767440006258975862817483704404090416747124418612574880605944350369924877650606926799392131911201 :=
  prime_of_pred 2 381 [(794313638957499499270577370679308530064362143769221875328034265471314993172778690817396407, 1)]
    (by simp only [List.forall_mem_cons, List.not_mem_nil, false_imp_iff, implies_true, and_true]; exact prime_299_396407)
    (by decide +kernel)

theorem prime_6217 : Nat.Prime 6217 := by norm_num

theorem prime_541 : Nat.Prime 541 := by norm_num

theorem prime_31_162621 : Nat.Prime 1547162621 :=
  prime_of_pred 2 31 [(6217, 1), (541, 1)]
    (by simp only [List.forall_mem_cons, List.not_mem_nil, false_imp_iff, implies_true, and_true]; exact ⟨prime_6217, prime_541⟩)
    (by decide +kernel)

theorem prime_739 : Nat.Prime 739 := by norm_num

theorem prime_71 : Nat.Prime 71 := by norm_num

theorem prime_5456777 : Nat.Prime 5456777 :=
  prime_of_pred 2 23 [(739, 1), (71, 1)]
    (by simp only [List.forall_mem_cons, List.not_mem_nil, false_imp_iff, implies_true, and_true]; exact ⟨prime_739, prime_71⟩)
    (by decide +kernel)

theorem prime_84_319423 : Nat.Prime 16247843220936739491319423 :=
  prime_of_pred 2 84 [(1547162621, 1), (5456777, 1)]
    (by simp only [List.forall_mem_cons, List.not_mem_nil, false_imp_iff, implies_true, and_true]; exact ⟨prime_31_162621, prime_5456777⟩)
    (by decide +kernel)

theorem prime_212587 : Nat.Prime 212587 := by norm_num

theorem prime_6353 : Nat.Prime 6353 := by norm_num

theorem prime_52_515269 : Nat.Prime 2619810189515269 :=
  prime_of_pred 2 52 [(212587, 1), (6353, 1)]
    (by simp only [List.forall_mem_cons, List.not_mem_nil, false_imp_iff, implies_true, and_true]; exact ⟨prime_212587, prime_6353⟩)
    (by decide +kernel)

theorem prime_176_296763 : Nat.Prime 70258120606036366544140183498310321834404388245296763 :=
  prime_of_succ 2 70258120606036366544140183498310321834404388245296760
    70258120606036366544140183498310321834404388245296761 176 [(16247843220936739491319423, 1), (2619810189515269, 1)]
    (by simp only [List.forall_mem_cons, List.not_mem_nil, false_imp_iff, implies_true, and_true]; exact ⟨prime_84_319423, prime_52_515269⟩)
    (by decide +kernel)

theorem prime_251_133017 : Nat.Prime 2550607742561656334918354913693665034166946459781668810655392038686863133017 :=
  prime_of_succ 3 2550607742561656334918354913693665034166946459781668810655392038686863133015
    2550607742561656334918354913693665034166946459781668810655392038686863133016 251 [(70258120606036366544140183498310321834404388245296763, 1)]
    (by simp only [List.forall_mem_cons, List.not_mem_nil, false_imp_iff, implies_true, and_true]; exact prime_176_296763)
    (by decide +kernel)

theorem prime_275_480899 : Nat.Prime 38916407753682983861283783766663832991809018999410768212336775108672551624633480899 :=
  prime_of_succ 2 38916407753682983861283783766663832991809018999410768212336775108672551624633480896
    38916407753682983861283783766663832991809018999410768212336775108672551624633480897 275 [(2550607742561656334918354913693665034166946459781668810655392038686863133017, 1)]
    (by simp only [List.forall_mem_cons, List.not_mem_nil, false_imp_iff, implies_true, and_true]; exact prime_251_133017)
    (by decide +kernel)

theorem prime_377_754593 : Nat.Prime 252243041490141992091916747959634815169496193136845853336769661422832941962389811668187387649516185742186371754593 :=
  prime_of_pred 2 377 [(38916407753682983861283783766663832991809018999410768212336775108672551624633480899, 1)]
    (by simp only [List.forall_mem_cons, List.not_mem_nil, false_imp_iff, implies_true, and_true]; exact prime_275_480899)
    (by decide +kernel)

theorem prime_443_049961 : Nat.Prime 22678127291974494752999082758512529677847838471000074610295040629304883810213774415831891245381957284486015221359371338545320928049961 :=
  prime_of_pred 2 443 [(252243041490141992091916747959634815169496193136845853336769661422832941962389811668187387649516185742186371754593, 1)]
    (by simp only [List.forall_mem_cons, List.not_mem_nil, false_imp_iff, implies_true, and_true]; exact prime_377_754593)
    (by decide +kernel)

theorem prime_519_108523 : Nat.Prime 1716199415032652428745475199770348304317358825035826352348615864796385795849413675475876651663657849636693659065234142604319282948702542317993421293670108523 :=
  prime_of_pred 2 519 [(22678127291974494752999082758512529677847838471000074610295040629304883810213774415831891245381957284486015221359371338545320928049961, 1)]
    (by simp only [List.forall_mem_cons, List.not_mem_nil, false_imp_iff, implies_true, and_true]; exact prime_443_049961)
    (by decide +kernel)

theorem prime_29633 : Nat.Prime 29633 := by norm_num

theorem prime_6779 : Nat.Prime 6779 := by norm_num

theorem prime_61 : Nat.Prime 61 := by norm_num

theorem prime_23 : Nat.Prime 23 := by norm_num

theorem prime_88_271007 : Nat.Prime 255030389469389683584271007 :=
  prime_of_pred 2 88 [(29633, 1), (6779, 1), (311, 1), (61, 1), (23, 1)]
    (by simp only [List.forall_mem_cons, List.not_mem_nil, false_imp_iff, implies_true, and_true]; exact ⟨prime_29633, prime_6779, prime_311, prime_61, prime_23⟩)
    (by decide +kernel)

theorem prime_46649 : Nat.Prime 46649 := by norm_num

theorem prime_919 : Nat.Prime 919 := by norm_num

theorem prime_47_545057 : Nat.Prime 123182867545057 :=
  prime_of_pred 2 47 [(46649, 1), (919, 1)]
    (by simp only [List.forall_mem_cons, List.not_mem_nil, false_imp_iff, implies_true, and_true]; exact ⟨prime_46649, prime_919⟩)
    (by decide +kernel)

theorem prime_217_540217 : Nat.Prime 175698830905040208406599491194059834979306596008147565317608540217 :=
  prime_of_pred 2 217 [(255030389469389683584271007, 1), (123182867545057, 1)]
    (by simp only [List.forall_mem_cons, List.not_mem_nil, false_imp_iff, implies_true, and_true]; exact ⟨prime_88_271007, prime_47_545057⟩)
    (by decide +kernel)

theorem prime_239_402717 : Nat.Prime 481951380909394163830556360717830606579326875406533211634727376676402717 :=
  prime_of_succ 2 481951380909394163830556360717830606579326875406533211634727376676402714
    481951380909394163830556360717830606579326875406533211634727376676402715 239 [(175698830905040208406599491194059834979306596008147565317608540217, 1)]
    (by simp only [List.forall_mem_cons, List.not_mem_nil, false_imp_iff, implies_true, and_true]; exact prime_217_540217)
    (by decide +kernel)

theorem prime_275_696131 : Nat.Prime 53917219066346060400729058623789073545776925287007150959192119328344370477816696131 :=
  prime_of_pred 2 275 [(481951380909394163830556360717830606579326875406533211634727376676402717, 1)]
    (by simp only [List.forall_mem_cons, List.not_mem_nil, false_imp_iff, implies_true, and_true]; exact prime_239_402717)
    (by decide +kernel)

theorem prime_289_563589 : Nat.Prime 557935382898549033026744298638969333051699622869949998125720050809707545704447171563589 :=
  prime_of_pred 2 289 [(53917219066346060400729058623789073545776925287007150959192119328344370477816696131, 1)]
    (by simp only [List.forall_mem_cons, List.not_mem_nil, false_imp_iff, implies_true, and_true]; exact prime_275_696131)
    (by decide +kernel)

theorem prime_311_942333 : Nat.Prime 2548976895085716329697587681830411627347998276648179122037187115488620176814788894639353942333 :=
  prime_of_pred 2 311 [(557935382898549033026744298638969333051699622869949998125720050809707545704447171563589, 1)]
    (by simp only [List.forall_mem_cons, List.not_mem_nil, false_imp_iff, implies_true, and_true]; exact prime_289_563589)
    (by decide +kernel)

theorem prime_509_942299 : Nat.Prime 837987995621412318723376562387865382967460363787024586107722590232610251879607410804876779383055508762141059258497448934987052508775626162460930737942299 :=
  prime_of_succ 2 837987995621412318723376562387865382967460363787024586107722590232610251879607410804876779383055508762141059258497448934987052508775626162460930737942296
    837987995621412318723376562387865382967460363787024586107722590232610251879607410804876779383055508762141059258497448934987052508775626162460930737942297 509 [(2548976895085716329697587681830411627347998276648179122037187115488620176814788894639353942333, 1)]
    (by simp only [List.forall_mem_cons, List.not_mem_nil, false_imp_iff, implies_true, and_true]; exact prime_311_942333)
    (by decide +kernel)

end Verif.Prime
