/-! The lines of UnicodeData.txt as the generators see them. -/
namespace U5e

/-- What the generators read of a line of src/u5e/props/UnicodeData.txt
(src/u5e/props/canonical_decomposition_mapping_data.pl:14-21): field 0 as a number, field 3 as a number,
the kind of the tag at the start of field 5 (0 none, 1 `<compat>`, 2 any other), and the entries of
field 5 as numbers (empty if the field is empty). Splitting lines and decoding hexadecimal is done by
tools/gen_ucd.py and trusted. -/
structure UcdRow where
  cp : Nat
  ccc : Nat
  tag : Nat
  decomp : List Nat
deriving DecidableEq

end U5e
