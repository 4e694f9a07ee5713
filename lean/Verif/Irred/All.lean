import Verif.Irred.Part01
import Verif.Irred.Part02
import Verif.Irred.Part03
import Verif.Irred.Part04
import Verif.Irred.Part05
import Verif.Irred.Part06
import Verif.Irred.Part07
import Verif.Irred.Part08
import Verif.Irred.Part09
import Verif.Irred.Part10
import Verif.Irred.Part11
import Verif.Irred.Part12

/-!
# All the parts together (generated)
-/

namespace Ecgen.Irred

open Ecgen.Poly

theorem tri_all : ∀ j < 96, allRows triRow ansiTrinomials (10 * j) 10 = true := fun j hj =>
  match j, hj with
  | 0, _ => tri_0
  | 1, _ => tri_1
  | 2, _ => tri_2
  | 3, _ => tri_3
  | 4, _ => tri_4
  | 5, _ => tri_5
  | 6, _ => tri_6
  | 7, _ => tri_7
  | 8, _ => tri_8
  | 9, _ => tri_9
  | 10, _ => tri_10
  | 11, _ => tri_11
  | 12, _ => tri_12
  | 13, _ => tri_13
  | 14, _ => tri_14
  | 15, _ => tri_15
  | 16, _ => tri_16
  | 17, _ => tri_17
  | 18, _ => tri_18
  | 19, _ => tri_19
  | 20, _ => tri_20
  | 21, _ => tri_21
  | 22, _ => tri_22
  | 23, _ => tri_23
  | 24, _ => tri_24
  | 25, _ => tri_25
  | 26, _ => tri_26
  | 27, _ => tri_27
  | 28, _ => tri_28
  | 29, _ => tri_29
  | 30, _ => tri_30
  | 31, _ => tri_31
  | 32, _ => tri_32
  | 33, _ => tri_33
  | 34, _ => tri_34
  | 35, _ => tri_35
  | 36, _ => tri_36
  | 37, _ => tri_37
  | 38, _ => tri_38
  | 39, _ => tri_39
  | 40, _ => tri_40
  | 41, _ => tri_41
  | 42, _ => tri_42
  | 43, _ => tri_43
  | 44, _ => tri_44
  | 45, _ => tri_45
  | 46, _ => tri_46
  | 47, _ => tri_47
  | 48, _ => tri_48
  | 49, _ => tri_49
  | 50, _ => tri_50
  | 51, _ => tri_51
  | 52, _ => tri_52
  | 53, _ => tri_53
  | 54, _ => tri_54
  | 55, _ => tri_55
  | 56, _ => tri_56
  | 57, _ => tri_57
  | 58, _ => tri_58
  | 59, _ => tri_59
  | 60, _ => tri_60
  | 61, _ => tri_61
  | 62, _ => tri_62
  | 63, _ => tri_63
  | 64, _ => tri_64
  | 65, _ => tri_65
  | 66, _ => tri_66
  | 67, _ => tri_67
  | 68, _ => tri_68
  | 69, _ => tri_69
  | 70, _ => tri_70
  | 71, _ => tri_71
  | 72, _ => tri_72
  | 73, _ => tri_73
  | 74, _ => tri_74
  | 75, _ => tri_75
  | 76, _ => tri_76
  | 77, _ => tri_77
  | 78, _ => tri_78
  | 79, _ => tri_79
  | 80, _ => tri_80
  | 81, _ => tri_81
  | 82, _ => tri_82
  | 83, _ => tri_83
  | 84, _ => tri_84
  | 85, _ => tri_85
  | 86, _ => tri_86
  | 87, _ => tri_87
  | 88, _ => tri_88
  | 89, _ => tri_89
  | 90, _ => tri_90
  | 91, _ => tri_91
  | 92, _ => tri_92
  | 93, _ => tri_93
  | 94, _ => tri_94
  | 95, _ => tri_95
  | k + 96, h => absurd h (by omega)

theorem penta_all : ∀ j < 89, allRows pentaRow ansiPentanomials (10 * j) 10 = true := fun j hj =>
  match j, hj with
  | 0, _ => penta_0
  | 1, _ => penta_1
  | 2, _ => penta_2
  | 3, _ => penta_3
  | 4, _ => penta_4
  | 5, _ => penta_5
  | 6, _ => penta_6
  | 7, _ => penta_7
  | 8, _ => penta_8
  | 9, _ => penta_9
  | 10, _ => penta_10
  | 11, _ => penta_11
  | 12, _ => penta_12
  | 13, _ => penta_13
  | 14, _ => penta_14
  | 15, _ => penta_15
  | 16, _ => penta_16
  | 17, _ => penta_17
  | 18, _ => penta_18
  | 19, _ => penta_19
  | 20, _ => penta_20
  | 21, _ => penta_21
  | 22, _ => penta_22
  | 23, _ => penta_23
  | 24, _ => penta_24
  | 25, _ => penta_25
  | 26, _ => penta_26
  | 27, _ => penta_27
  | 28, _ => penta_28
  | 29, _ => penta_29
  | 30, _ => penta_30
  | 31, _ => penta_31
  | 32, _ => penta_32
  | 33, _ => penta_33
  | 34, _ => penta_34
  | 35, _ => penta_35
  | 36, _ => penta_36
  | 37, _ => penta_37
  | 38, _ => penta_38
  | 39, _ => penta_39
  | 40, _ => penta_40
  | 41, _ => penta_41
  | 42, _ => penta_42
  | 43, _ => penta_43
  | 44, _ => penta_44
  | 45, _ => penta_45
  | 46, _ => penta_46
  | 47, _ => penta_47
  | 48, _ => penta_48
  | 49, _ => penta_49
  | 50, _ => penta_50
  | 51, _ => penta_51
  | 52, _ => penta_52
  | 53, _ => penta_53
  | 54, _ => penta_54
  | 55, _ => penta_55
  | 56, _ => penta_56
  | 57, _ => penta_57
  | 58, _ => penta_58
  | 59, _ => penta_59
  | 60, _ => penta_60
  | 61, _ => penta_61
  | 62, _ => penta_62
  | 63, _ => penta_63
  | 64, _ => penta_64
  | 65, _ => penta_65
  | 66, _ => penta_66
  | 67, _ => penta_67
  | 68, _ => penta_68
  | 69, _ => penta_69
  | 70, _ => penta_70
  | 71, _ => penta_71
  | 72, _ => penta_72
  | 73, _ => penta_73
  | 74, _ => penta_74
  | 75, _ => penta_75
  | 76, _ => penta_76
  | 77, _ => penta_77
  | 78, _ => penta_78
  | 79, _ => penta_79
  | 80, _ => penta_80
  | 81, _ => penta_81
  | 82, _ => penta_82
  | 83, _ => penta_83
  | 84, _ => penta_84
  | 85, _ => penta_85
  | 86, _ => penta_86
  | 87, _ => penta_87
  | 88, _ => penta_88
  | k + 89, h => absurd h (by omega)

end Ecgen.Irred
