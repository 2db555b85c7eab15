import Verif.Proofs.CacheLengthTables
import Verif.Model.ResultFiles

/-! # The rows of the checked-in results, each checked by the kernel -/

namespace Grisu
open ResultFiles

namespace CacheLength

theorem rows32_negative : all (negative_check .b32 60) binary32_negative_k 0 = true := by decide +kernel
theorem rows32_positive : all (positive_check .b32 60) binary32_positive_k 0 = true := by decide +kernel

theorem rows64_negative_0 : all (negative_check .b64 60) binary64_negative_k_0 0 = true := by decide +kernel
theorem rows64_negative_1 : all (negative_check .b64 60) binary64_negative_k_1 240 = true := by decide +kernel
theorem rows64_negative_2 : all (negative_check .b64 60) binary64_negative_k_2 480 = true := by decide +kernel
theorem rows64_negative_3 : all (negative_check .b64 60) binary64_negative_k_3 720 = true := by decide +kernel
theorem rows64_negative_4 : all (negative_check .b64 60) binary64_negative_k_4 960 = true := by decide +kernel

theorem rows64_negative : all (negative_check .b64 60) binary64_negative_k 0 = true :=
  all_join (all_join (all_join (all_join rows64_negative_0 rows64_negative_1 (by decide +kernel)) rows64_negative_2 (by decide +kernel))
    rows64_negative_3 (by decide +kernel)) rows64_negative_4 (by decide +kernel)

theorem rows64_positive_0 : all (positive_check .b64 60) binary64_positive_k_0 0 = true := by decide +kernel
theorem rows64_positive_1 : all (positive_check .b64 60) binary64_positive_k_1 240 = true := by decide +kernel
theorem rows64_positive_2 : all (positive_check .b64 60) binary64_positive_k_2 480 = true := by decide +kernel
theorem rows64_positive_3 : all (positive_check .b64 60) binary64_positive_k_3 720 = true := by decide +kernel
theorem rows64_positive_4 : all (positive_check .b64 60) binary64_positive_k_4 960 = true := by decide +kernel

theorem rows64_positive : all (positive_check .b64 60) binary64_positive_k 0 = true :=
  all_join (all_join (all_join (all_join rows64_positive_0 rows64_positive_1 (by decide +kernel)) rows64_positive_2 (by decide +kernel))
    rows64_positive_3 (by decide +kernel)) rows64_positive_4 (by decide +kernel)

/-- The checked-in rows. -/
def rows_negative : Fmt → List Nat
  | .b32 => binary32_negative_k
  | .b64 => binary64_negative_k
/-- The checked-in rows. -/
def rows_positive : Fmt → List Nat
  | .b32 => binary32_positive_k
  | .b64 => binary64_positive_k

theorem all_negative (F : Fmt) : all (negative_check F 60) (rows_negative F) 0 = true := by
  cases F
  · exact rows32_negative
  · exact rows64_negative

theorem all_positive (F : Fmt) : all (positive_check F 60) (rows_positive F) 0 = true := by
  cases F
  · exact rows32_positive
  · exact rows64_positive

theorem length_negative (F : Fmt) : ((rows_negative F).length : Int) = F.max_exponent - (F.alpha + 3) + 1 := by
  cases F <;> decide +kernel

theorem length_positive (F : Fmt) : ((rows_positive F).length : Int) = F.alpha + 2 - F.min_exponent + 1 := by
  cases F <;> decide +kernel

end CacheLength
end Grisu
