import Verif.Lemmas.Nfkd
import Verif.Data.Words.ChineseSimplified
import Verif.Data.Words.ChineseTraditional
import Verif.Data.Words.Czech
import Verif.Data.Words.English
import Verif.Data.Words.French
import Verif.Data.Words.Italian
import Verif.Data.Words.Japanese
import Verif.Data.Words.Korean
import Verif.Data.Words.Portuguese
import Verif.Data.Words.Spanish

/-! # All shipped words are in NFKD: the checks -/

namespace Bips

theorem stable_chineseSimplified : stableCodes Data.ChineseSimplified.codes = true := by decide +kernel
theorem stable_chineseTraditional : stableCodes Data.ChineseTraditional.codes = true := by decide +kernel
theorem stable_czech : stableCodes Data.Czech.codes = true := by decide +kernel
theorem stable_english : stableCodes Data.English.codes = true := by decide +kernel
theorem stable_french : stableCodes Data.French.codes = true := by decide +kernel
theorem stable_italian : stableCodes Data.Italian.codes = true := by decide +kernel
theorem stable_japanese : stableCodes Data.Japanese.codes = true := by decide +kernel
theorem stable_korean : stableCodes Data.Korean.codes = true := by decide +kernel
theorem stable_portuguese : stableCodes Data.Portuguese.codes = true := by decide +kernel
theorem stable_spanish : stableCodes Data.Spanish.codes = true := by decide +kernel

end Bips
