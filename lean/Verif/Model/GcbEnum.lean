/-! Model of the enum in include/u5e/props/grapheme_cluster_break.hpp. -/
namespace U5e

/-- include/u5e/props/grapheme_cluster_break.hpp:20-39 `prop_value_type`. -/
inductive GCB where
  | OTHER | PREPEND | CR | LF | CONTROL | EXTEND | REGIONAL_INDICATOR | SPACINGMARK
  | L | V | T | LV | LVT | E_BASE | E_MODIFIER | ZWJ | GLUE_AFTER_ZWJ | E_BASE_GAZ
  deriving DecidableEq, Repr

end U5e
