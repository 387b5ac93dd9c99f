import Verif.Proofs.PolarCert

/-! # The certificates of the modes for `k = 27/4`, computed by the kernel -/

namespace Pot
set_option maxRecDepth 10000

theorem cert_88_27_low : ∀ n < 6, certBlock n 88 27 0 (2 ^ n - 1) := by decide +kernel
theorem cert_88_27_0 : certBlock 6 88 27 0 16 := by decide +kernel
theorem cert_88_27_16 : certBlock 6 88 27 16 16 := by decide +kernel
theorem cert_88_27_32 : certBlock 6 88 27 32 16 := by decide +kernel
theorem cert_88_27_48 : certBlock 6 88 27 48 15 := by decide +kernel
theorem cert_94_27_low : ∀ n < 6, certBlock n 94 27 0 (2 ^ n - 1) := by decide +kernel
theorem cert_94_27_0 : certBlock 6 94 27 0 16 := by decide +kernel
theorem cert_94_27_16 : certBlock 6 94 27 16 16 := by decide +kernel
theorem cert_94_27_32 : certBlock 6 94 27 32 16 := by decide +kernel
theorem cert_94_27_48 : certBlock 6 94 27 48 15 := by decide +kernel
theorem cert_108_27_low : ∀ n < 6, certBlock n 108 27 0 (2 ^ n - 1) := by decide +kernel
theorem cert_108_27_0 : certBlock 6 108 27 0 16 := by decide +kernel
theorem cert_108_27_16 : certBlock 6 108 27 16 16 := by decide +kernel
theorem cert_108_27_32 : certBlock 6 108 27 32 16 := by decide +kernel
theorem cert_108_27_48 : certBlock 6 108 27 48 15 := by decide +kernel
theorem cert_89_27_low : ∀ n < 6, certBlock n 89 27 0 (2 ^ n - 1) := by decide +kernel
theorem cert_89_27_0 : certBlock 6 89 27 0 16 := by decide +kernel
theorem cert_89_27_16 : certBlock 6 89 27 16 16 := by decide +kernel
theorem cert_89_27_32 : certBlock 6 89 27 32 16 := by decide +kernel
theorem cert_89_27_48 : certBlock 6 89 27 48 15 := by decide +kernel
theorem cert_91_27_low : ∀ n < 6, certBlock n 91 27 0 (2 ^ n - 1) := by decide +kernel
theorem cert_91_27_0 : certBlock 6 91 27 0 16 := by decide +kernel
theorem cert_91_27_16 : certBlock 6 91 27 16 16 := by decide +kernel
theorem cert_91_27_32 : certBlock 6 91 27 32 16 := by decide +kernel
theorem cert_91_27_48 : certBlock 6 91 27 48 15 := by decide +kernel

end Pot
