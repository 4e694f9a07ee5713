import Verif.Stack.Certificate

/-!
# The stages of all classes pass the check (`obj_insert_shallow` does not release the clone it replaces)
-/

namespace Ecgen.Stack

theorem keep_plain_0 : certify ⟨.plain, true, false, true, false⟩ 0 = true := by decide +kernel
theorem keep_plain_1 : certify ⟨.plain, true, false, true, false⟩ 1 = true := by decide +kernel
theorem keep_plain_2 : certify ⟨.plain, true, false, true, false⟩ 2 = true := by decide +kernel
theorem keep_plain_3 : certify ⟨.plain, true, false, true, false⟩ 3 = true := by decide +kernel
theorem keep_plain_4 : certify ⟨.plain, true, false, true, false⟩ 4 = true := by decide +kernel
theorem keep_plain_5 : certify ⟨.plain, true, false, true, false⟩ 5 = true := by decide +kernel
theorem keep_plain_6 : certify ⟨.plain, true, false, true, false⟩ 6 = true := by decide +kernel
theorem keep_plain_7 : certify ⟨.plain, true, false, true, false⟩ 7 = true := by decide +kernel
theorem keep_plain_8 : certify ⟨.plain, true, false, true, false⟩ 8 = true := by decide +kernel
theorem keep_plain_8_skip : certify ⟨.plain, false, false, true, false⟩ 8 = true := by decide +kernel
theorem keep_joint_0 : certify ⟨.joint, true, false, true, false⟩ 0 = true := by decide +kernel
theorem keep_joint_1 : certify ⟨.joint, true, false, true, false⟩ 1 = true := by decide +kernel
theorem keep_joint_2 : certify ⟨.joint, true, false, true, false⟩ 2 = true := by decide +kernel
theorem keep_joint_3 : certify ⟨.joint, true, false, true, false⟩ 3 = true := by decide +kernel
theorem keep_joint_4 : certify ⟨.joint, true, false, true, false⟩ 4 = true := by decide +kernel
theorem keep_joint_5 : certify ⟨.joint, true, false, true, false⟩ 5 = true := by decide +kernel
theorem keep_joint_6 : certify ⟨.joint, true, false, true, false⟩ 6 = true := by decide +kernel
theorem keep_joint_7 : certify ⟨.joint, true, false, true, false⟩ 7 = true := by decide +kernel
theorem keep_joint_8 : certify ⟨.joint, true, false, true, false⟩ 8 = true := by decide +kernel
theorem keep_joint_8_skip : certify ⟨.joint, false, false, true, false⟩ 8 = true := by decide +kernel
theorem keep_seeded_0 : certify ⟨.seeded, true, false, true, false⟩ 0 = true := by decide +kernel
theorem keep_seeded_1 : certify ⟨.seeded, true, false, true, false⟩ 1 = true := by decide +kernel
theorem keep_seeded_2 : certify ⟨.seeded, true, false, true, false⟩ 2 = true := by decide +kernel
theorem keep_seeded_3 : certify ⟨.seeded, true, false, true, false⟩ 3 = true := by decide +kernel
theorem keep_seeded_4 : certify ⟨.seeded, true, false, true, false⟩ 4 = true := by decide +kernel
theorem keep_seeded_5 : certify ⟨.seeded, true, false, true, false⟩ 5 = true := by decide +kernel
theorem keep_seeded_6 : certify ⟨.seeded, true, false, true, false⟩ 6 = true := by decide +kernel
theorem keep_seeded_7 : certify ⟨.seeded, true, false, true, false⟩ 7 = true := by decide +kernel
theorem keep_seeded_8 : certify ⟨.seeded, true, false, true, false⟩ 8 = true := by decide +kernel
theorem keep_seeded_8_skip : certify ⟨.seeded, false, false, true, false⟩ 8 = true := by decide +kernel
theorem keep_whole_0 : certify ⟨.whole, true, false, true, false⟩ 0 = true := by decide +kernel
theorem keep_whole_1 : certify ⟨.whole, true, false, true, false⟩ 1 = true := by decide +kernel
theorem keep_whole_2 : certify ⟨.whole, true, false, true, false⟩ 2 = true := by decide +kernel
theorem keep_whole_3 : certify ⟨.whole, true, false, true, false⟩ 3 = true := by decide +kernel
theorem keep_whole_4 : certify ⟨.whole, true, false, true, false⟩ 4 = true := by decide +kernel
theorem keep_whole_5 : certify ⟨.whole, true, false, true, false⟩ 5 = true := by decide +kernel
theorem keep_whole_6 : certify ⟨.whole, true, false, true, false⟩ 6 = true := by decide +kernel
theorem keep_whole_7 : certify ⟨.whole, true, false, true, false⟩ 7 = true := by decide +kernel
theorem keep_whole_8 : certify ⟨.whole, true, false, true, false⟩ 8 = true := by decide +kernel
theorem keep_whole_8_skip : certify ⟨.whole, false, false, true, false⟩ 8 = true := by decide +kernel
theorem keep_twist_0 : certify ⟨.twist, true, true, true, false⟩ 0 = true := by decide +kernel
theorem keep_twist_1 : certify ⟨.twist, true, true, true, false⟩ 1 = true := by decide +kernel
theorem keep_twist_2 : certify ⟨.twist, true, true, true, false⟩ 2 = true := by decide +kernel
theorem keep_twist_3 : certify ⟨.twist, true, true, true, false⟩ 3 = true := by decide +kernel
theorem keep_twist_4 : certify ⟨.twist, true, true, true, false⟩ 4 = true := by decide +kernel
theorem keep_twist_5 : certify ⟨.twist, true, true, true, false⟩ 5 = true := by decide +kernel
theorem keep_twist_6 : certify ⟨.twist, true, true, true, false⟩ 6 = true := by decide +kernel
theorem keep_twist_7 : certify ⟨.twist, true, true, true, false⟩ 7 = true := by decide +kernel
theorem keep_twist_8 : certify ⟨.twist, true, true, true, false⟩ 8 = true := by decide +kernel
theorem keep_twist_8_skip : certify ⟨.twist, false, true, true, false⟩ 8 = true := by decide +kernel
theorem keep_nums : certify ⟨.plain, true, true, true, false⟩ 3 = true := by decide +kernel
theorem keep_family : certify ⟨.seeded, true, true, true, false⟩ 3 = true := by decide +kernel
theorem keep_brainpool : certify ⟨.joint, true, false, false, false⟩ 1 = true := by decide +kernel

end Ecgen.Stack
