set_option maxRecDepth 10000
/-! GENERATED by tools/gen_ucd.py from src/u5e/props/CompositionExclusions.txt (all 81 entries, in order). -/
namespace U5e.Data
open U5e

/-- src/u5e/props/CompositionExclusions.txt, entries of lines 28-123. -/
def excl0 : List Nat := [
  2392,
  2393,
  2394,
  2395,
  2396,
  2397,
  2398,
  2399,
  2524,
  2525,
  2527,
  2611,
  2614,
  2649,
  2650,
  2651,
  2654,
  2908,
  2909,
  3907,
  3917,
  3922,
  3927,
  3932,
  3945,
  3958,
  3960,
  3987,
  3997,
  4002,
  4007,
  4012,
  4025,
  64285,
  64287,
  64298,
  64299,
  64300,
  64301,
  64302,
  64303,
  64304,
  64305,
  64306,
  64307,
  64308,
  64309,
  64310,
  64312,
  64313,
  64314,
  64315,
  64316,
  64318,
  64320,
  64321,
  64323,
  64324,
  64326,
  64327,
  64328,
  64329,
  64330,
  64331,
  64332,
  64333,
  64334,
  10972,
  119134,
  119135,
  119136,
  119137,
  119138,
  119139,
  119140,
  119227,
  119228,
  119229,
  119230,
  119231,
  119232]

/-- All of it: src/u5e/props/CompositionExclusions.txt (all 81 entries, in order). -/
@[irreducible] def exclRows : List Nat :=
  excl0

end U5e.Data
