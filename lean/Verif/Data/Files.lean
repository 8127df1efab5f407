import Verif.Data.Octets
import Verif.Data.RawUcd
import Verif.Data.RawGcb
import Verif.Data.RawExcl
import Verif.Data.RawCccHdr
import Verif.Data.RawDecHdr
import Verif.Data.RawKdecHdr
import Verif.Data.RawCompHdr
import Verif.Data.RawGcbHdr
/-! # The checked-in files, octet by octet -/
namespace U5e.Data

/-- src/u5e/props/UnicodeData.txt (30592 lines). -/
def unicodeDataTxt : Str := textOf unicodeDataRaw
/-- src/u5e/props/CompositionExclusions.txt. -/
def compositionExclusionsTxt : Str := textOf compositionExclusionsRaw
/-- src/u5e/props/GraphemeBreakProperty.txt. -/
def graphemeBreakPropertyTxt : Str := textOf graphemeBreakPropertyRaw
/-- src/u5e/props/canonical_combining_class_data.hpp (no newline at the end). -/
def combiningClassHpp : Str := textOfOpen cccHeaderRaw
/-- src/u5e/props/canonical_decomposition_mapping_data.hpp (no newline at the end). -/
def canonicalDecompositionHpp : Str := textOfOpen decHeaderRaw
/-- src/u5e/props/compatibility_and_canonical_decomposition_mapping_data.hpp (no newline at the end). -/
def compatibilityDecompositionHpp : Str := textOfOpen kdecHeaderRaw
/-- src/u5e/props/canonical_composition_mapping_data.hpp (no newline at the end). -/
def compositionHpp : Str := textOfOpen compHeaderRaw
/-- src/u5e/props/grapheme_cluster_break_data.hpp. -/
def graphemeClusterBreakHpp : Str := textOf gcbHeaderRaw

end U5e.Data
