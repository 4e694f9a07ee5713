import Verif.Stack.Certificate

/-!
# The stages of all classes pass the check (`obj_insert_shallow` releases the clone it replaces)
-/

namespace Ecgen.Stack

theorem rel_plain_0 : certify ⟨.plain, true, false, true, true⟩ 0 = true := by decide +kernel
theorem rel_plain_1 : certify ⟨.plain, true, false, true, true⟩ 1 = true := by decide +kernel
theorem rel_plain_2 : certify ⟨.plain, true, false, true, true⟩ 2 = true := by decide +kernel
theorem rel_plain_3 : certify ⟨.plain, true, false, true, true⟩ 3 = true := by decide +kernel
theorem rel_plain_4 : certify ⟨.plain, true, false, true, true⟩ 4 = true := by decide +kernel
theorem rel_plain_5 : certify ⟨.plain, true, false, true, true⟩ 5 = true := by decide +kernel
theorem rel_plain_6 : certify ⟨.plain, true, false, true, true⟩ 6 = true := by decide +kernel
theorem rel_plain_7 : certify ⟨.plain, true, false, true, true⟩ 7 = true := by decide +kernel
theorem rel_plain_8 : certify ⟨.plain, true, false, true, true⟩ 8 = true := by decide +kernel
theorem rel_plain_8_skip : certify ⟨.plain, false, false, true, true⟩ 8 = true := by decide +kernel
theorem rel_joint_0 : certify ⟨.joint, true, false, true, true⟩ 0 = true := by decide +kernel
theorem rel_joint_1 : certify ⟨.joint, true, false, true, true⟩ 1 = true := by decide +kernel
theorem rel_joint_2 : certify ⟨.joint, true, false, true, true⟩ 2 = true := by decide +kernel
theorem rel_joint_3 : certify ⟨.joint, true, false, true, true⟩ 3 = true := by decide +kernel
theorem rel_joint_4 : certify ⟨.joint, true, false, true, true⟩ 4 = true := by decide +kernel
theorem rel_joint_5 : certify ⟨.joint, true, false, true, true⟩ 5 = true := by decide +kernel
theorem rel_joint_6 : certify ⟨.joint, true, false, true, true⟩ 6 = true := by decide +kernel
theorem rel_joint_7 : certify ⟨.joint, true, false, true, true⟩ 7 = true := by decide +kernel
theorem rel_joint_8 : certify ⟨.joint, true, false, true, true⟩ 8 = true := by decide +kernel
theorem rel_joint_8_skip : certify ⟨.joint, false, false, true, true⟩ 8 = true := by decide +kernel
theorem rel_seeded_0 : certify ⟨.seeded, true, false, true, true⟩ 0 = true := by decide +kernel
theorem rel_seeded_1 : certify ⟨.seeded, true, false, true, true⟩ 1 = true := by decide +kernel
theorem rel_seeded_2 : certify ⟨.seeded, true, false, true, true⟩ 2 = true := by decide +kernel
theorem rel_seeded_3 : certify ⟨.seeded, true, false, true, true⟩ 3 = true := by decide +kernel
theorem rel_seeded_4 : certify ⟨.seeded, true, false, true, true⟩ 4 = true := by decide +kernel
theorem rel_seeded_5 : certify ⟨.seeded, true, false, true, true⟩ 5 = true := by decide +kernel
theorem rel_seeded_6 : certify ⟨.seeded, true, false, true, true⟩ 6 = true := by decide +kernel
theorem rel_seeded_7 : certify ⟨.seeded, true, false, true, true⟩ 7 = true := by decide +kernel
theorem rel_seeded_8 : certify ⟨.seeded, true, false, true, true⟩ 8 = true := by decide +kernel
theorem rel_seeded_8_skip : certify ⟨.seeded, false, false, true, true⟩ 8 = true := by decide +kernel
theorem rel_whole_0 : certify ⟨.whole, true, false, true, true⟩ 0 = true := by decide +kernel
theorem rel_whole_1 : certify ⟨.whole, true, false, true, true⟩ 1 = true := by decide +kernel
theorem rel_whole_2 : certify ⟨.whole, true, false, true, true⟩ 2 = true := by decide +kernel
theorem rel_whole_3 : certify ⟨.whole, true, false, true, true⟩ 3 = true := by decide +kernel
theorem rel_whole_4 : certify ⟨.whole, true, false, true, true⟩ 4 = true := by decide +kernel
theorem rel_whole_5 : certify ⟨.whole, true, false, true, true⟩ 5 = true := by decide +kernel
theorem rel_whole_6 : certify ⟨.whole, true, false, true, true⟩ 6 = true := by decide +kernel
theorem rel_whole_7 : certify ⟨.whole, true, false, true, true⟩ 7 = true := by decide +kernel
theorem rel_whole_8 : certify ⟨.whole, true, false, true, true⟩ 8 = true := by decide +kernel
theorem rel_whole_8_skip : certify ⟨.whole, false, false, true, true⟩ 8 = true := by decide +kernel
theorem rel_twist_0 : certify ⟨.twist, true, true, true, true⟩ 0 = true := by decide +kernel
theorem rel_twist_1 : certify ⟨.twist, true, true, true, true⟩ 1 = true := by decide +kernel
theorem rel_twist_2 : certify ⟨.twist, true, true, true, true⟩ 2 = true := by decide +kernel
theorem rel_twist_3 : certify ⟨.twist, true, true, true, true⟩ 3 = true := by decide +kernel
theorem rel_twist_4 : certify ⟨.twist, true, true, true, true⟩ 4 = true := by decide +kernel
theorem rel_twist_5 : certify ⟨.twist, true, true, true, true⟩ 5 = true := by decide +kernel
theorem rel_twist_6 : certify ⟨.twist, true, true, true, true⟩ 6 = true := by decide +kernel
theorem rel_twist_7 : certify ⟨.twist, true, true, true, true⟩ 7 = true := by decide +kernel
theorem rel_twist_8 : certify ⟨.twist, true, true, true, true⟩ 8 = true := by decide +kernel
theorem rel_twist_8_skip : certify ⟨.twist, false, true, true, true⟩ 8 = true := by decide +kernel
theorem rel_nums : certify ⟨.plain, true, true, true, true⟩ 3 = true := by decide +kernel
theorem rel_family : certify ⟨.seeded, true, true, true, true⟩ 3 = true := by decide +kernel
theorem rel_brainpool : certify ⟨.joint, true, false, false, true⟩ 1 = true := by decide +kernel

end Ecgen.Stack
