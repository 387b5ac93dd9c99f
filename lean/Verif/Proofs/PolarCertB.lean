import Verif.Proofs.PolarCert

/-! # The certificates of the modes for `k = 43/4`, computed by the kernel -/

namespace Pot
set_option maxRecDepth 10000

theorem cert_88_43_low : ∀ n < 6, certBlock n 88 43 0 (2 ^ n - 1) := by decide +kernel
theorem cert_88_43_0 : certBlock 6 88 43 0 16 := by decide +kernel
theorem cert_88_43_16 : certBlock 6 88 43 16 16 := by decide +kernel
theorem cert_88_43_32 : certBlock 6 88 43 32 16 := by decide +kernel
theorem cert_88_43_48 : certBlock 6 88 43 48 15 := by decide +kernel
theorem cert_94_43_low : ∀ n < 6, certBlock n 94 43 0 (2 ^ n - 1) := by decide +kernel
theorem cert_94_43_0 : certBlock 6 94 43 0 16 := by decide +kernel
theorem cert_94_43_16 : certBlock 6 94 43 16 16 := by decide +kernel
theorem cert_94_43_32 : certBlock 6 94 43 32 16 := by decide +kernel
theorem cert_94_43_48 : certBlock 6 94 43 48 15 := by decide +kernel
theorem cert_108_43_low : ∀ n < 6, certBlock n 108 43 0 (2 ^ n - 1) := by decide +kernel
theorem cert_108_43_0 : certBlock 6 108 43 0 16 := by decide +kernel
theorem cert_108_43_16 : certBlock 6 108 43 16 16 := by decide +kernel
theorem cert_108_43_32 : certBlock 6 108 43 32 16 := by decide +kernel
theorem cert_108_43_48 : certBlock 6 108 43 48 15 := by decide +kernel
theorem cert_89_43_low : ∀ n < 6, certBlock n 89 43 0 (2 ^ n - 1) := by decide +kernel
theorem cert_89_43_0 : certBlock 6 89 43 0 16 := by decide +kernel
theorem cert_89_43_16 : certBlock 6 89 43 16 16 := by decide +kernel
theorem cert_89_43_32 : certBlock 6 89 43 32 16 := by decide +kernel
theorem cert_89_43_48 : certBlock 6 89 43 48 15 := by decide +kernel
theorem cert_91_43_low : ∀ n < 6, certBlock n 91 43 0 (2 ^ n - 1) := by decide +kernel
theorem cert_91_43_0 : certBlock 6 91 43 0 16 := by decide +kernel
theorem cert_91_43_16 : certBlock 6 91 43 16 16 := by decide +kernel
theorem cert_91_43_32 : certBlock 6 91 43 32 16 := by decide +kernel
theorem cert_91_43_48 : certBlock 6 91 43 48 15 := by decide +kernel

end Pot
