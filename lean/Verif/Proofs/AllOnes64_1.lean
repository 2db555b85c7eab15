import Verif.Proofs.AllOnes

namespace Grisu

theorem onesCheck64_1 : ∀ E ∈ List.range' 513 512, onesCheck .b64 .do_not_care E = true ∧
    onesCheck .b64 .tie_to_even E = true := by decide +kernel

end Grisu
