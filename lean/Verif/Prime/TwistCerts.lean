import Verif.Prime.OrderCerts
import Verif.Prime.CurveCriterion

/-!
# The orders of the large subgroups of the twists are prime

Primality certificates (chains of Pocklington and Morrison steps, and of steps with elliptic curves for two of
them), found outside Lean and
checked by the kernel.
-/

namespace Verif.Prime

theorem prime_199 : Nat.Prime 199 := by norm_num

theorem prime_179 : Nat.Prime 179 := by norm_num

theorem prime_1496083 : Nat.Prime 1496083 :=
  prime_of_pred 2 21 [(199, 1), (179, 1)]
    (by simp only [List.forall_mem_cons, List.not_mem_nil, false_imp_iff, implies_true, and_true]; exact ⟨prime_199, prime_179⟩)
    (by decide +kernel)

theorem prime_44882491 : Nat.Prime 44882491 :=
  prime_of_pred 2 26 [(1496083, 1)]
    (by simp only [List.forall_mem_cons, List.not_mem_nil, false_imp_iff, implies_true, and_true]; exact prime_1496083)
    (by decide +kernel)

theorem prime_2851 : Nat.Prime 2851 := by norm_num

theorem prime_61_823969 : Nat.Prime 1503740664681823969 :=
  prime_of_pred 2 61 [(44882491, 1), (2851, 1)]
    (by simp only [List.forall_mem_cons, List.not_mem_nil, false_imp_iff, implies_true, and_true]; exact ⟨prime_44882491, prime_2851⟩)
    (by decide +kernel)

theorem prime_112_668131 : Nat.Prime 3490173597642402264137422678668131 :=
  prime_of_pred 2 112 [(1503740664681823969, 1)]
    (by simp only [List.forall_mem_cons, List.not_mem_nil, false_imp_iff, implies_true, and_true]; exact prime_61_823969)
    (by decide +kernel)

theorem prime_219_534793 : Nat.Prime 842498333348457493583344221469362581248531362447993170180305534793 :=
  prime_of_succ 3 842498333348457493583344221469362581248531362447993170180305534791
    842498333348457493583344221469362581248531362447993170180305534792 219 [(3490173597642402264137422678668131, 1)]
    (by simp only [List.forall_mem_cons, List.not_mem_nil, false_imp_iff, implies_true, and_true]; exact prime_112_668131)
    (by decide +kernel)

theorem prime_6619 : Nat.Prime 6619 := by norm_num

theorem prime_34_592677 : Nat.Prime 8669592677 :=
  prime_of_pred 2 34 [(6619, 1), (619, 1)]
    (by simp only [List.forall_mem_cons, List.not_mem_nil, false_imp_iff, implies_true, and_true]; exact ⟨prime_6619, prime_619⟩)
    (by decide +kernel)

theorem prime_38_780311 : Nat.Prime 260087780311 :=
  prime_of_pred 2 38 [(8669592677, 1)]
    (by simp only [List.forall_mem_cons, List.not_mem_nil, false_imp_iff, implies_true, and_true]; exact prime_34_592677)
    (by decide +kernel)

theorem prime_606857 : Nat.Prime 606857 := by norm_num

theorem prime_95_347201 : Nat.Prime 22326823069834410397473347201 :=
  prime_of_pred 2 95 [(260087780311, 1), (606857, 1)]
    (by simp only [List.forall_mem_cons, List.not_mem_nil, false_imp_iff, implies_true, and_true]; exact ⟨prime_38_780311, prime_606857⟩)
    (by decide +kernel)

theorem prime_136_461257 : Nat.Prime 60305182333661816060591495006794203461257 :=
  prime_of_succ 5 30152591166830908030295747503397101730627
    30152591166830908030295747503397101730628 136 [(22326823069834410397473347201, 1)]
    (by simp only [List.forall_mem_cons, List.not_mem_nil, false_imp_iff, implies_true, and_true]; exact prime_95_347201)
    (by decide +kernel)

theorem prime_144_059839 : Nat.Prime 20141930899443046564237559332269263956059839 :=
  prime_of_pred 2 144 [(60305182333661816060591495006794203461257, 1)]
    (by simp only [List.forall_mem_cons, List.not_mem_nil, false_imp_iff, implies_true, and_true]; exact prime_136_461257)
    (by decide +kernel)

theorem prime_169_343517 : Nat.Prime 608798804452985435116754752294182030625105124343517 :=
  prime_of_pred 2 169 [(20141930899443046564237559332269263956059839, 1)]
    (by simp only [List.forall_mem_cons, List.not_mem_nil, false_imp_iff, implies_true, and_true]; exact prime_144_059839)
    (by decide +kernel)

theorem prime_193_236237 : Nat.Prime 9272623113806683504059383266759218626999404900347848236237 :=
  prime_of_succ 2 9272623113806683504059383266759218626999404900347848236234
    9272623113806683504059383266759218626999404900347848236235 193 [(608798804452985435116754752294182030625105124343517, 1)]
    (by simp only [List.forall_mem_cons, List.not_mem_nil, false_imp_iff, implies_true, and_true]; exact prime_169_343517)
    (by decide +kernel)

theorem prime_211_417037 : Nat.Prime 3167286967475404111215579779960013343298694729431415913444417037 :=
  prime_of_succ 2 3167286967475404111215579779960013343298694729431415913444417034
    3167286967475404111215579779960013343298694729431415913444417035 211 [(9272623113806683504059383266759218626999404900347848236237, 1)]
    (by simp only [List.forall_mem_cons, List.not_mem_nil, false_imp_iff, implies_true, and_true]; exact prime_193_236237)
    (by decide +kernel)

theorem prime_220_931843 : Nat.Prime 842498333348457493583344221469363549317452798028756632976214931843 :=
  prime_of_pred 2 220 [(3167286967475404111215579779960013343298694729431415913444417037, 1)]
    (by simp only [List.forall_mem_cons, List.not_mem_nil, false_imp_iff, implies_true, and_true]; exact prime_211_417037)
    (by decide +kernel)

theorem prime_221_863687 : Nat.Prime 1684996666696914987166688442938727098634905596057513265952429863687 :=
  prime_of_pred 2 221 [(842498333348457493583344221469363549317452798028756632976214931843, 1)]
    (by simp only [List.forall_mem_cons, List.not_mem_nil, false_imp_iff, implies_true, and_true]; exact prime_220_931843)
    (by decide +kernel)

theorem prime_3094607 : Nat.Prime 3094607 :=
  prime_of_pred 2 22 [(71, 1), (37, 1)]
    (by simp only [List.forall_mem_cons, List.not_mem_nil, false_imp_iff, implies_true, and_true]; exact ⟨prime_71, prime_37⟩)
    (by decide +kernel)

theorem prime_12163 : Nat.Prime 12163 := by norm_num

theorem prime_49_884487 : Nat.Prime 348016711884487 :=
  prime_of_pred 2 49 [(3094607, 1), (12163, 1)]
    (by simp only [List.forall_mem_cons, List.not_mem_nil, false_imp_iff, implies_true, and_true]; exact ⟨prime_3094607, prime_12163⟩)
    (by decide +kernel)

theorem prime_56_445363 : Nat.Prime 43850105697445363 :=
  prime_of_pred 2 56 [(348016711884487, 1)]
    (by simp only [List.forall_mem_cons, List.not_mem_nil, false_imp_iff, implies_true, and_true]; exact prime_49_884487)
    (by decide +kernel)

theorem prime_10559 : Nat.Prime 10559 := by norm_num

theorem prime_2141 : Nat.Prime 2141 := by norm_num

theorem prime_41_977361 : Nat.Prime 1886312977361 :=
  prime_of_pred 2 41 [(10559, 1), (2141, 1)]
    (by simp only [List.forall_mem_cons, List.not_mem_nil, false_imp_iff, implies_true, and_true]; exact ⟨prime_10559, prime_2141⟩)
    (by decide +kernel)

theorem prime_2551 : Nat.Prime 2551 := by norm_num

theorem prime_1025503 : Nat.Prime 1025503 :=
  prime_of_pred 2 20 [(2551, 1)]
    (by simp only [List.forall_mem_cons, List.not_mem_nil, false_imp_iff, implies_true, and_true]; exact prime_2551)
    (by decide +kernel)

theorem prime_37_533333 : Nat.Prime 72240533333 :=
  prime_of_pred 2 37 [(1025503, 1)]
    (by simp only [List.forall_mem_cons, List.not_mem_nil, false_imp_iff, implies_true, and_true]; exact prime_1025503)
    (by decide +kernel)

theorem prime_203_857709 : Nat.Prime 7709728928696487373337941203521096567469726390276358190857709 :=
  prime_of_succ 2 7709728928696487373337941203521096567469726390276358190857706
    7709728928696487373337941203521096567469726390276358190857707 203 [(43850105697445363, 1), (1886312977361, 1), (72240533333, 1)]
    (by simp only [List.forall_mem_cons, List.not_mem_nil, false_imp_iff, implies_true, and_true]; exact ⟨prime_56_445363, prime_41_977361, prime_37_533333⟩)
    (by decide +kernel)

theorem prime_250_675019 : Nat.Prime 904625697166532776746648320380374280115004475121138339093035488349999675019 :=
  prime_of_pred 2 250 [(7709728928696487373337941203521096567469726390276358190857709, 1)]
    (by simp only [List.forall_mem_cons, List.not_mem_nil, false_imp_iff, implies_true, and_true]; exact prime_203_857709)
    (by decide +kernel)

theorem prime_7687 : Nat.Prime 7687 := by norm_num

theorem prime_259897471 : Nat.Prime 259897471 :=
  prime_of_pred 2 28 [(7687, 1), (23, 1)]
    (by simp only [List.forall_mem_cons, List.not_mem_nil, false_imp_iff, implies_true, and_true]; exact ⟨prime_7687, prime_23⟩)
    (by decide +kernel)

theorem prime_52_818199 : Nat.Prime 2303559130818199 :=
  prime_of_pred 2 52 [(259897471, 1)]
    (by simp only [List.forall_mem_cons, List.not_mem_nil, false_imp_iff, implies_true, and_true]; exact prime_259897471)
    (by decide +kernel)

theorem prime_76_912551 : Nat.Prime 38417492226263972912551 :=
  prime_of_pred 2 76 [(2303559130818199, 1)]
    (by simp only [List.forall_mem_cons, List.not_mem_nil, false_imp_iff, implies_true, and_true]; exact prime_52_818199)
    (by decide +kernel)

theorem prime_97_061629 : Nat.Prime 115261235867019506923477061629 :=
  prime_of_pred 2 97 [(38417492226263972912551, 1)]
    (by simp only [List.forall_mem_cons, List.not_mem_nil, false_imp_iff, implies_true, and_true]; exact prime_76_912551)
    (by decide +kernel)

theorem prime_138_928013 : Nat.Prime 203852586375664218368381551393371968928013 :=
  prime_of_succ 2 203852586375664218368381551393371968928010
    203852586375664218368381551393371968928011 138 [(115261235867019506923477061629, 1)]
    (by simp only [List.forall_mem_cons, List.not_mem_nil, false_imp_iff, implies_true, and_true]; exact prime_97_061629)
    (by decide +kernel)

theorem prime_157_278101 : Nat.Prime 104719073621178708975837602950775180438320278101 :=
  prime_of_pred 2 157 [(203852586375664218368381551393371968928013, 1)]
    (by simp only [List.forall_mem_cons, List.not_mem_nil, false_imp_iff, implies_true, and_true]; exact prime_138_928013)
    (by decide +kernel)

theorem prime_175_279781 : Nat.Prime 27413359092552162435694767700453926735143482401279781 :=
  prime_of_pred 2 175 [(104719073621178708975837602950775180438320278101, 1)]
    (by simp only [List.forall_mem_cons, List.not_mem_nil, false_imp_iff, implies_true, and_true]; exact prime_157_278101)
    (by decide +kernel)

theorem prime_253_907997 : Nat.Prime 14474011154664524427946373126085988481603263447650325797860494125407373907997 :=
  prime_of_pred 2 253 [(27413359092552162435694767700453926735143482401279781, 1)]
    (by simp only [List.forall_mem_cons, List.not_mem_nil, false_imp_iff, implies_true, and_true]; exact prime_175_279781)
    (by decide +kernel)

theorem prime_95311 : Nat.Prime 95311 := by norm_num

theorem prime_115326311 : Nat.Prime 115326311 :=
  prime_of_pred 2 27 [(95311, 1)]
    (by simp only [List.forall_mem_cons, List.not_mem_nil, false_imp_iff, implies_true, and_true]; exact prime_95311)
    (by decide +kernel)

theorem prime_34_452259 : Nat.Prime 8995452259 :=
  prime_of_pred 2 34 [(115326311, 1)]
    (by simp only [List.forall_mem_cons, List.not_mem_nil, false_imp_iff, implies_true, and_true]; exact prime_115326311)
    (by decide +kernel)

theorem prime_794207 : Nat.Prime 794207 := by norm_num

theorem prime_75_892899 : Nat.Prime 26118996423113546892899 :=
  prime_of_pred 2 75 [(8995452259, 1), (794207, 1)]
    (by simp only [List.forall_mem_cons, List.not_mem_nil, false_imp_iff, implies_true, and_true]; exact ⟨prime_34_452259, prime_794207⟩)
    (by decide +kernel)

theorem prime_139_473171 : Nat.Prime 425134619026470249826080997088774108473171 :=
  prime_of_pred 2 139 [(26118996423113546892899, 1)]
    (by simp only [List.forall_mem_cons, List.not_mem_nil, false_imp_iff, implies_true, and_true]; exact prime_75_892899)
    (by decide +kernel)

theorem prime_164_331617 : Nat.Prime 20112590808945476643221607979671518814422996331617 :=
  prime_of_succ 3 20112590808945476643221607979671518814422996331615
    20112590808945476643221607979671518814422996331616 164 [(425134619026470249826080997088774108473171, 1)]
    (by simp only [List.forall_mem_cons, List.not_mem_nil, false_imp_iff, implies_true, and_true]; exact prime_139_473171)
    (by decide +kernel)

theorem prime_171_120507 : Nat.Prime 2493961260309239103759479389479268332988451545120507 :=
  prime_of_succ 2 2493961260309239103759479389479268332988451545120504
    2493961260309239103759479389479268332988451545120505 171 [(20112590808945476643221607979671518814422996331617, 1)]
    (by simp only [List.forall_mem_cons, List.not_mem_nil, false_imp_iff, implies_true, and_true]; exact prime_164_331617)
    (by decide +kernel)

theorem prime_197_982269 : Nat.Prime 132514945648719450732625795951913634887948272656733637982269 :=
  prime_of_pred 2 197 [(2493961260309239103759479389479268332988451545120507, 1)]
    (by simp only [List.forall_mem_cons, List.not_mem_nil, false_imp_iff, implies_true, and_true]; exact prime_171_120507)
    (by decide +kernel)

theorem prime_272_319723 : Nat.Prime 6033870777901550694409388750181488091053823905087249736002431750549727835387319723 :=
  prime_of_pred 2 272 [(132514945648719450732625795951913634887948272656733637982269, 1)]
    (by simp only [List.forall_mem_cons, List.not_mem_nil, false_imp_iff, implies_true, and_true]; exact prime_197_982269)
    (by decide +kernel)

theorem prime_381_561717 : Nat.Prime 4925250774549309901534880012517951725634967408808180833493204202978852474404940886836912197553998376631916975561717 :=
  prime_of_pred 2 381 [(6033870777901550694409388750181488091053823905087249736002431750549727835387319723, 1)]
    (by simp only [List.forall_mem_cons, List.not_mem_nil, false_imp_iff, implies_true, and_true]; exact prime_272_319723)
    (by decide +kernel)

theorem prime_17 : Nat.Prime 17 := by norm_num

theorem prime_58788143 : Nat.Prime 58788143 :=
  prime_of_pred 3 26 [(71, 2), (17, 1)]
    (by simp only [List.forall_mem_cons, List.not_mem_nil, false_imp_iff, implies_true, and_true]; exact ⟨prime_71, prime_17⟩)
    (by decide +kernel)

theorem prime_117576287 : Nat.Prime 117576287 :=
  prime_of_pred 2 27 [(58788143, 1)]
    (by simp only [List.forall_mem_cons, List.not_mem_nil, false_imp_iff, implies_true, and_true]; exact prime_58788143)
    (by decide +kernel)

theorem prime_35_257401 : Nat.Prime 23515257401 :=
  prime_of_pred 2 35 [(117576287, 1)]
    (by simp only [List.forall_mem_cons, List.not_mem_nil, false_imp_iff, implies_true, and_true]; exact prime_117576287)
    (by decide +kernel)

theorem prime_36_514803 : Nat.Prime 47030514803 :=
  prime_of_pred 2 36 [(23515257401, 1)]
    (by simp only [List.forall_mem_cons, List.not_mem_nil, false_imp_iff, implies_true, and_true]; exact prime_35_257401)
    (by decide +kernel)

theorem prime_37_029607 : Nat.Prime 94061029607 :=
  prime_of_pred 2 37 [(47030514803, 1)]
    (by simp only [List.forall_mem_cons, List.not_mem_nil, false_imp_iff, implies_true, and_true]; exact prime_36_514803)
    (by decide +kernel)

theorem prime_76673 : Nat.Prime 76673 := by norm_num

theorem prime_29135741 : Nat.Prime 29135741 :=
  prime_of_pred 2 25 [(76673, 1)]
    (by simp only [List.forall_mem_cons, List.not_mem_nil, false_imp_iff, implies_true, and_true]; exact prime_76673)
    (by decide +kernel)

theorem prime_95_064591 : Nat.Prime 32426697022110549003169064591 :=
  prime_of_pred 2 95 [(94061029607, 1), (29135741, 1)]
    (by simp only [List.forall_mem_cons, List.not_mem_nil, false_imp_iff, implies_true, and_true]; exact ⟨prime_37_029607, prime_29135741⟩)
    (by decide +kernel)

theorem prime_113_572459 : Nat.Prime 9664387927075783803806501672572459 :=
  prime_of_pred 2 113 [(32426697022110549003169064591, 1)]
    (by simp only [List.forall_mem_cons, List.not_mem_nil, false_imp_iff, implies_true, and_true]; exact prime_95_064591)
    (by decide +kernel)

theorem prime_117_869507 : Nat.Prime 115972655124909405645678020070869507 :=
  prime_of_succ 2 115972655124909405645678020070869504
    115972655124909405645678020070869505 117 [(9664387927075783803806501672572459, 1)]
    (by simp only [List.forall_mem_cons, List.not_mem_nil, false_imp_iff, implies_true, and_true]; exact prime_113_572459)
    (by decide +kernel)

theorem prime_129_649669 : Nat.Prime 524660291785090151141047362800613649669 :=
  prime_of_pred 2 129 [(115972655124909405645678020070869507, 1)]
    (by simp only [List.forall_mem_cons, List.not_mem_nil, false_imp_iff, implies_true, and_true]; exact prime_117_869507)
    (by decide +kernel)

theorem prime_139_314017 : Nat.Prime 453306492102317890585864921459730193314017 :=
  prime_of_pred 2 139 [(524660291785090151141047362800613649669, 1)]
    (by simp only [List.forall_mem_cons, List.not_mem_nil, false_imp_iff, implies_true, and_true]; exact prime_129_649669)
    (by decide +kernel)

theorem prime_148_539447 : Nat.Prime 198548243540815236076608835599361824671539447 :=
  prime_of_pred 2 148 [(453306492102317890585864921459730193314017, 1)]
    (by simp only [List.forall_mem_cons, List.not_mem_nil, false_imp_iff, implies_true, and_true]; exact prime_139_314017)
    (by decide +kernel)

theorem prime_8539 : Nat.Prime 8539 := by norm_num

theorem prime_65323351 : Nat.Prime 65323351 :=
  prime_of_pred 2 26 [(8539, 1)]
    (by simp only [List.forall_mem_cons, List.not_mem_nil, false_imp_iff, implies_true, and_true]; exact prime_8539)
    (by decide +kernel)

theorem prime_33_035631 : Nat.Prime 8492035631 :=
  prime_of_pred 2 33 [(65323351, 1)]
    (by simp only [List.forall_mem_cons, List.not_mem_nil, false_imp_iff, implies_true, and_true]; exact prime_65323351)
    (by decide +kernel)

theorem prime_43_525789 : Nat.Prime 4653635525789 :=
  prime_of_pred 2 43 [(8492035631, 1)]
    (by simp only [List.forall_mem_cons, List.not_mem_nil, false_imp_iff, implies_true, and_true]; exact prime_33_035631)
    (by decide +kernel)

theorem prime_75_505853 : Nat.Prime 21980004164771457505853 :=
  prime_of_pred 2 75 [(4653635525789, 1)]
    (by simp only [List.forall_mem_cons, List.not_mem_nil, false_imp_iff, implies_true, and_true]; exact prime_43_525789)
    (by decide +kernel)

theorem prime_304_643611 : Nat.Prime 18895059184283836713882776167547354480336145147521570807563207379026619142420663903487643611 :=
  prime_of_succ 2 18895059184283836713882776167547354480336145147521570807563207379026619142420663903487643608
    18895059184283836713882776167547354480336145147521570807563207379026619142420663903487643609 304 [(198548243540815236076608835599361824671539447, 1), (21980004164771457505853, 1)]
    (by simp only [List.forall_mem_cons, List.not_mem_nil, false_imp_iff, implies_true, and_true]; exact ⟨prime_148_539447, prime_75_505853⟩)
    (by decide +kernel)

theorem prime_381_754209 : Nat.Prime 4925250774549309901534880012517951725634967408808180833492824513836280681662413952113716808420015056602872733754209 :=
  prime_of_pred 2 381 [(18895059184283836713882776167547354480336145147521570807563207379026619142420663903487643611, 1)]
    (by simp only [List.forall_mem_cons, List.not_mem_nil, false_imp_iff, implies_true, and_true]; exact prime_304_643611)
    (by decide +kernel)

theorem prime_464171 : Nat.Prime 464171 := by norm_num

theorem prime_14821 : Nat.Prime 14821 := by norm_num

theorem prime_40_536573 : Nat.Prime 784260536573 :=
  prime_of_succ 2 784260536570
    784260536571 40 [(464171, 1), (14821, 1)]
    (by simp only [List.forall_mem_cons, List.not_mem_nil, false_imp_iff, implies_true, and_true]; exact ⟨prime_464171, prime_14821⟩)
    (by decide +kernel)

theorem prime_77_374081 : Nat.Prime 79996275760179405374081 :=
  prime_of_pred 2 77 [(784260536573, 1)]
    (by simp only [List.forall_mem_cons, List.not_mem_nil, false_imp_iff, implies_true, and_true]; exact prime_40_536573)
    (by decide +kernel)

theorem prime_53 : Nat.Prime 53 := by norm_num

theorem prime_2227273 : Nat.Prime 2227273 :=
  prime_of_pred 2 22 [(103, 1), (53, 1)]
    (by simp only [List.forall_mem_cons, List.not_mem_nil, false_imp_iff, implies_true, and_true]; exact ⟨prime_103, prime_53⟩)
    (by decide +kernel)

theorem prime_36_913461 : Nat.Prime 35680913461 :=
  prime_of_pred 2 36 [(2227273, 1)]
    (by simp only [List.forall_mem_cons, List.not_mem_nil, false_imp_iff, implies_true, and_true]; exact prime_2227273)
    (by decide +kernel)

theorem prime_166_793283 : Nat.Prime 86818973383462859546867641015077597799302504793283 :=
  prime_of_succ 2 86818973383462859546867641015077597799302504793280
    86818973383462859546867641015077597799302504793281 166 [(79996275760179405374081, 1), (35680913461, 1)]
    (by simp only [List.forall_mem_cons, List.not_mem_nil, false_imp_iff, implies_true, and_true]; exact ⟨prime_77_374081, prime_36_913461⟩)
    (by decide +kernel)

theorem prime_189_251791 : Nat.Prime 727120188553041298876757586294606841656872386969368251791 :=
  prime_of_pred 2 189 [(86818973383462859546867641015077597799302504793283, 1)]
    (by simp only [List.forall_mem_cons, List.not_mem_nil, false_imp_iff, implies_true, and_true]; exact prime_166_793283)
    (by decide +kernel)

theorem prime_271_757003 : Nat.Prime 2171012850403956642020315649101408672739788508032944777959351292699744960384757003 :=
  prime_of_pred 2 271 [(727120188553041298876757586294606841656872386969368251791, 1)]
    (by simp only [List.forall_mem_cons, List.not_mem_nil, false_imp_iff, implies_true, and_true]; exact prime_189_251791)
    (by decide +kernel)

theorem prime_381_740979 : Nat.Prime 2462625387274654950767440006258975862817483704404090416747798640973052166872502155164123955177369850754744417740979 :=
  prime_of_curve 1429090235952152388088815961198530750691441782258841860181305240479773717721002784333782360999131246479554413777422
    670003614347839617448327750443263634333668415174496665379663317431268775269034649521217947094577215045199087088738
    1312394401516810312285078534784449517269702982306764297695448031198314237038960019799344762909080244917479425389993
    2171012850403956642020315649101408672739788508032944777959351292699744960384757003 270 prime_271_757003 (by decide +kernel)

theorem prime_139747 : Nat.Prime 139747 := by norm_num

theorem prime_66169 : Nat.Prime 66169 := by norm_num

theorem prime_57_219089 : Nat.Prime 113484018509219089 :=
  prime_of_succ 11 90787214807375270
    90787214807375271 57 [(139747, 1), (66169, 1)]
    (by simp only [List.forall_mem_cons, List.not_mem_nil, false_imp_iff, implies_true, and_true]; exact ⟨prime_139747, prime_66169⟩)
    (by decide +kernel)

theorem prime_74_324927 : Nat.Prime 14838262388117414324927 :=
  prime_of_succ 5 7419131194058707162462
    7419131194058707162463 74 [(113484018509219089, 1)]
    (by simp only [List.forall_mem_cons, List.not_mem_nil, false_imp_iff, implies_true, and_true]; exact prime_57_219089)
    (by decide +kernel)

theorem prime_126_005541 : Nat.Prime 81773312494032355625641948905248005541 :=
  prime_of_succ 2 81773312494032355625641948905248005538
    81773312494032355625641948905248005539 126 [(14838262388117414324927, 1)]
    (by simp only [List.forall_mem_cons, List.not_mem_nil, false_imp_iff, implies_true, and_true]; exact prime_74_324927)
    (by decide +kernel)

theorem prime_161_917489 : Nat.Prime 2370211474321400076221949739564488132485418917489 :=
  prime_of_succ 3 2370211474321400076221949739564488132485418917487
    2370211474321400076221949739564488132485418917488 161 [(81773312494032355625641948905248005541, 1)]
    (by simp only [List.forall_mem_cons, List.not_mem_nil, false_imp_iff, implies_true, and_true]; exact prime_126_005541)
    (by decide +kernel)

theorem prime_234_664367 : Nat.Prime 25521820196260532778882177173993921394015395044330296068873030445664367 :=
  prime_of_pred 2 234 [(2370211474321400076221949739564488132485418917489, 1)]
    (by simp only [List.forall_mem_cons, List.not_mem_nil, false_imp_iff, implies_true, and_true]; exact prime_161_917489)
    (by decide +kernel)

theorem prime_246_844671 : Nat.Prime 112704357986686512751543694400357156875971984515762587440143302448053844671 :=
  prime_of_succ 7 75136238657791008501029129600238104583981323010508391626762201632035896446
    75136238657791008501029129600238104583981323010508391626762201632035896447 246 [(25521820196260532778882177173993921394015395044330296068873030445664367, 1)]
    (by simp only [List.forall_mem_cons, List.not_mem_nil, false_imp_iff, implies_true, and_true]; exact prime_234_664367)
    (by decide +kernel)

theorem prime_366_526161 : Nat.Prime 104033754239631823712255190956345641806807791724720405509948501077933969978245219141810136352471050222510526161 :=
  prime_of_pred 2 366 [(112704357986686512751543694400357156875971984515762587440143302448053844671, 1)]
    (by simp only [List.forall_mem_cons, List.not_mem_nil, false_imp_iff, implies_true, and_true]; exact prime_246_844671)
    (by decide +kernel)

theorem prime_412_028803 : Nat.Prime 5288447750321988791615322464262168318627237463714249754277190395559387193645633287411691377616107457765456896611395456028803 :=
  prime_of_pred 2 412 [(104033754239631823712255190956345641806807791724720405509948501077933969978245219141810136352471050222510526161, 1)]
    (by simp only [List.forall_mem_cons, List.not_mem_nil, false_imp_iff, implies_true, and_true]; exact prime_366_526161)
    (by decide +kernel)

theorem prime_601 : Nat.Prime 601 := by norm_num

theorem prime_29 : Nat.Prime 29 := by norm_num

theorem prime_1394321 : Nat.Prime 1394321 :=
  prime_of_pred 2 21 [(601, 1), (29, 1)]
    (by simp only [List.forall_mem_cons, List.not_mem_nil, false_imp_iff, implies_true, and_true]; exact ⟨prime_601, prime_29⟩)
    (by decide +kernel)

theorem prime_37_678007 : Nat.Prime 109434678007 :=
  prime_of_pred 2 37 [(1394321, 1)]
    (by simp only [List.forall_mem_cons, List.not_mem_nil, false_imp_iff, implies_true, and_true]; exact prime_1394321)
    (by decide +kernel)

theorem prime_45343 : Nat.Prime 45343 := by norm_num

theorem prime_85_348511 : Nat.Prime 34716487718615616928348511 :=
  prime_of_pred 2 85 [(109434678007, 1), (45343, 1)]
    (by simp only [List.forall_mem_cons, List.not_mem_nil, false_imp_iff, implies_true, and_true]; exact ⟨prime_37_678007, prime_45343⟩)
    (by decide +kernel)

theorem prime_93_458783 : Nat.Prime 5624071010415729942392458783 :=
  prime_of_pred 2 93 [(34716487718615616928348511, 1)]
    (by simp only [List.forall_mem_cons, List.not_mem_nil, false_imp_iff, implies_true, and_true]; exact prime_85_348511)
    (by decide +kernel)

theorem prime_70867 : Nat.Prime 70867 := by norm_num

theorem prime_41102861 : Nat.Prime 41102861 :=
  prime_of_pred 2 26 [(70867, 1)]
    (by simp only [List.forall_mem_cons, List.not_mem_nil, false_imp_iff, implies_true, and_true]; exact prime_70867)
    (by decide +kernel)

theorem prime_45_512723 : Nat.Prime 20017175512723 :=
  prime_of_pred 2 45 [(41102861, 1)]
    (by simp only [List.forall_mem_cons, List.not_mem_nil, false_imp_iff, implies_true, and_true]; exact prime_41102861)
    (by decide +kernel)

theorem prime_197_518503 : Nat.Prime 105556237174362084109178087169138094932238561101655446518503 :=
  prime_of_succ 3 105556237174362084109178087169138094932238561101655446518501
    105556237174362084109178087169138094932238561101655446518502 197 [(5624071010415729942392458783, 1), (20017175512723, 1)]
    (by simp only [List.forall_mem_cons, List.not_mem_nil, false_imp_iff, implies_true, and_true]; exact ⟨prime_93_458783, prime_45_512723⟩)
    (by decide +kernel)

theorem prime_288_115213 : Nat.Prime 268503373219956331187219739833070480458054047720192527492970945826359873065968460115213 :=
  prime_of_pred 2 288 [(105556237174362084109178087169138094932238561101655446518503, 1)]
    (by simp only [List.forall_mem_cons, List.not_mem_nil, false_imp_iff, implies_true, and_true]; exact prime_197_518503)
    (by decide +kernel)

theorem prime_462_995163 : Nat.Prime 8724014928713599099191809421405125964363690583479954810922949251396457289669594630515417744262001801288916756700396231588559785491800995163 :=
  prime_of_curve 0
    6453013000801194658479764086862433778612174186912512949731841822438989747558200978153670520654402217114499611153350506951979912194931345005
    5378294749007650623670913294684546208743224506308331343071881140473000260533395808074383686905573615730473308090759723677120914601218931414
    268503373219956331187219739833070480458054047720192527492970945826359873065968460115213 287 prime_288_115213 (by decide +kernel)

theorem prime_475_384153 : Nat.Prime 73098521087691246852128171141953550455403363398978541360723391777450916160903313882758746911817923375425228544026699935053556429788066343384153 :=
  prime_of_curve 0
    13683140318786051340843804445386242372138025790790194969920700291069465026496800375165809295986039146741769334233905966301447466706209276251870
    47347592318814306070667530037895417348503704156889370150839153626637823665408206156590306680201353016102356864162586659858957258074287885429333
    8724014928713599099191809421405125964363690583479954810922949251396457289669594630515417744262001801288916756700396231588559785491800995163 461 prime_462_995163 (by decide +kernel)

theorem prime_490_339921 : Nat.Prime 2755814245005960006325232052051648852168706800141491009299271870009899539198508140380449436259492564066245677457391788313872842937160699018607339921 :=
  prime_of_curve 111382762243366209445906738988223561870180790408061849406251270251777510360222562452328103018702815026810813892305196267513593550237718534494817144
    2420865203201873352285447158879797294655077695235855262524520761306685189377465660891499829112684195967019945826066238569469499853824149556931496575
    41259661640068374619170205276705092085387662636602019725970931152335194632581510049215312189802362704592928854381518794593000671108585941338499580
    73098521087691246852128171141953550455403363398978541360723391777450916160903313882758746911817923375425228544026699935053556429788066343384153 474 prime_475_384153 (by decide +kernel)

theorem prime_497_225721 : Nat.Prime 231488396580500640531319492372338503582171371211885244781138837080831561292692256060147280918611498500497595516990251394916616055340303252238512225721 :=
  prime_of_curve 220682887826248483510896256067629825618545779448306627809735839144552515963043124742138216336858229375868634279402428209108253565193593043151653576993
    178316289787126982441311360943842613037335290551923342097818827834584043013631816030305762351480775322537539068040793744557233703382408949920342208901
    117592055751229178629358478596168149362566002575557304518886045813338979717440408911901070690971771948118978495999692302306392073496971782030344087008
    2755814245005960006325232052051648852168706800141491009299271870009899539198508140380449436259492564066245677457391788313872842937160699018607339921 489 prime_490_339921 (by decide +kernel)

theorem prime_509_636333 : Nat.Prime 1675975991242824637446753124775730765934920727574049172215445180465220503759171922590715015775614839398225846029626614843464365685435390161686550775636333 :=
  prime_of_curve 1551360110129153023931376996995328988941568331688308186741871765355150999500775760375797918657031589586630786379310977627323682356803529272991191193985007
    448290271677297685963059808821797571712995678411123348092633839383498795136311802590152878411750872880742368116068842804628158670545249035079854074086789
    681452906179136278923116718494186930938034391255482680767980303690309181715565659252221605366313628671339236164958828206809779085716451485227031079916825
    231488396580500640531319492372338503582171371211885244781138837080831561292692256060147280918611498500497595516990251394916616055340303252238512225721 496 prime_497_225721 (by decide +kernel)

theorem prime_1187 : Nat.Prime 1187 := by norm_num

theorem prime_137 : Nat.Prime 137 := by norm_num

theorem prime_43 : Nat.Prime 43 := by norm_num

theorem prime_38_286501 : Nat.Prime 241245286501 :=
  prime_of_pred 2 38 [(1187, 1), (137, 1), (43, 1)]
    (by simp only [List.forall_mem_cons, List.not_mem_nil, false_imp_iff, implies_true, and_true]; exact ⟨prime_1187, prime_137, prime_43⟩)
    (by decide +kernel)

theorem prime_16703 : Nat.Prime 16703 := by norm_num

theorem prime_90_778333 : Nat.Prime 718421600654614888578778333 :=
  prime_of_pred 2 90 [(241245286501, 1), (16703, 1)]
    (by simp only [List.forall_mem_cons, List.not_mem_nil, false_imp_iff, implies_true, and_true]; exact ⟨prime_38_286501, prime_16703⟩)
    (by decide +kernel)

theorem prime_174_247457 : Nat.Prime 13626337181548781961065021039528065521362245802247457 :=
  prime_of_succ 5 6813168590774390980532510519764032760681122901123727
    6813168590774390980532510519764032760681122901123728 174 [(718421600654614888578778333, 1)]
    (by simp only [List.forall_mem_cons, List.not_mem_nil, false_imp_iff, implies_true, and_true]; exact prime_90_778333)
    (by decide +kernel)

theorem prime_215_118867 : Nat.Prime 28938774045863136338797101017419358636139979142479826529885118867 :=
  prime_of_pred 2 215 [(13626337181548781961065021039528065521362245802247457, 1)]
    (by simp only [List.forall_mem_cons, List.not_mem_nil, false_imp_iff, implies_true, and_true]; exact prime_174_247457)
    (by decide +kernel)

theorem prime_15217 : Nat.Prime 15217 := by norm_num

theorem prime_3286873 : Nat.Prime 3286873 :=
  prime_of_pred 2 22 [(15217, 1)]
    (by simp only [List.forall_mem_cons, List.not_mem_nil, false_imp_iff, implies_true, and_true]; exact prime_15217)
    (by decide +kernel)

theorem prime_6131 : Nat.Prime 6131 := by norm_num

theorem prime_57_824079 : Nat.Prime 139759026803824079 :=
  prime_of_pred 2 57 [(3286873, 1), (6131, 1)]
    (by simp only [List.forall_mem_cons, List.not_mem_nil, false_imp_iff, implies_true, and_true]; exact ⟨prime_3286873, prime_6131⟩)
    (by decide +kernel)

theorem prime_83_096789 : Nat.Prime 6114313750387749125096789 :=
  prime_of_pred 2 83 [(139759026803824079, 1)]
    (by simp only [List.forall_mem_cons, List.not_mem_nil, false_imp_iff, implies_true, and_true]; exact prime_57_824079)
    (by decide +kernel)

theorem prime_88_903671 : Nat.Prime 183429412511632473752903671 :=
  prime_of_pred 2 88 [(6114313750387749125096789, 1)]
    (by simp only [List.forall_mem_cons, List.not_mem_nil, false_imp_iff, implies_true, and_true]; exact prime_83_096789)
    (by decide +kernel)

theorem prime_475_200959 : Nat.Prime 60650177408485084925772397359452343492676178496622593868981522480243230848859484494326083587960346220877691092522597549044871215899368832200959 :=
  prime_of_pred 2 475 [(28938774045863136338797101017419358636139979142479826529885118867, 1), (183429412511632473752903671, 1)]
    (by simp only [List.forall_mem_cons, List.not_mem_nil, false_imp_iff, implies_true, and_true]; exact ⟨prime_215_118867, prime_88_903671⟩)
    (by decide +kernel)

theorem prime_520_420053 : Nat.Prime 1716199415032652428745475199770348304317358825035826352348615864796385795849414350585403168667069427851954496630506286414241711051155779588293592851887420053 :=
  prime_of_pred 2 520 [(60650177408485084925772397359452343492676178496622593868981522480243230848859484494326083587960346220877691092522597549044871215899368832200959, 1)]
    (by simp only [List.forall_mem_cons, List.not_mem_nil, false_imp_iff, implies_true, and_true]; exact prime_475_200959)
    (by decide +kernel)

end Verif.Prime
