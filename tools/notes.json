{
 "C05": {
  "note": "The 256-by-128 step is the primitive the public division is built from."
 },
 "C09": {
  "note": "C09_div_rem_euclid_partial excludes the case rhs = MIN with a negative dividend other than MIN, where C09_div_rem_euclid_panics proves that the code panics in debug builds."
 },
 "C12": {
  "note": "Release builds do not reduce the amount modulo 256: C12_release gives the amount really used for every input, C12_release_partial the inputs where the claim holds, C12_release_wrong proves it false for all the others."
 },
 "C47": {
  "note": "Proved for every layout the compiler may choose for the two private std structs, from their declarations (one field each) and the equal sizes that transmute demands at compile time."
 },
 "C13": {
  "note": "The _partial theorems cover every amount in builds without overflow checks and amounts up to 256 with them; C13_rotate_panics proves that every larger amount panics there."
 },
 "C30": {
  "note": "C30_prefixed_overflow_kind records that an out-of-range prefixed number is reported as an invalid digit."
 },
 "C31": {
  "note": "C31_u256_exact / C31_i256_exact give exactly the accepted texts and values; the claim itself is false: C31_rejects_in_range and C31_accepts_without_digits prove counterexamples in every configuration."
 },
 "C35": {
  "note": "U256::as_f32 is proved correctly rounded. The other conversions are proved faithful (no float strictly between value and result), exact where possible, monotone and finite; C35_as_f64_nearest and C35_i256_as_f32_nearest prove that they are the nearest float below 2^128 and for values whose parts are exact, C35_as_f64_clear and C35_i256_as_f32_clear that they are the nearest float wherever one float is nearer than all others by a small margin; C35_as_f64_not_nearest and C35_i256_as_f32_not_nearest prove that they are not always the nearest float."
 },
 "C36": {
  "note": "All finite values, NaN and f64 infinities are proved; C36_f32_infinity proves that f32 infinities give 2^128 instead of saturating."
 },
 "C38": {
  "note": "Complete for I256. For U256 C38_u256_exact gives exactly what is accepted; the claim is false for negative numbers, which C38_u256_negative_wraps proves are always accepted with another value."
 },
 "C40": {
  "note": "Complete for U256. For I256 the claim is false (C40_i256_not_recovered, C40_i256_be_not_shortest): C40_i256_le_partial and C40_i256_be_partial give exactly the values that are recovered."
 },
 "C46": {
  "note": "The routines agree for every operand the documented contract allows, and all public functions (C46_api_*) are the same function in both builds except two kinds, for which the exact condition is proved: shift operators by an oversized amount in builds without debug assertions (C46_api_shift_by, witness C46_shift_disagree) and rotation by more than 256 with overflow checks (C46_api_rotate), where the native back-end is wrong."
 },
 "C43": {
  "note": "Stated as a logical relation between two runs on targets of opposite byte order, for every modelled public function. C43_ne_bytes_observable shows the functions that must reveal it."
 },
 "C60": {
  "note": "The text of the IR is that of a fragment written by hand, not of a given rustc. The counts of zeros hold for a compiler that attaches no range attribute to them; C60_range_attribute proves that they fail otherwise."
 },
 "C67": {
  "note": "False under Stacked Borrows (C67_*_rejected say exactly for which values); proved for all values under Tree Borrows. C67_decimal_whole_pointer proves that the usual repair obeys both."
 },
 "C73": {
  "note": "False from 2^128 on (C73_misprinted: 10^39). C73_digits_partial proves the clause on values with at most 15 significant digits for values below 2^128; C73_digits_iff says exactly which of the others have it. All other clauses are proved for all values."
 },
 "C74": {
  "note": "False for values too large for an f32 (C74_f32_large: MAX comes back as 2^128); the f32 theorems prove the error bound for all other values and the remaining clauses for all."
 },
 "C75": {
  "note": "The client is in SpecLedger.lean, not in /repo. C75_release_inflation is the limit that the last sentence of the statement allows."
 },
 "C76": {
  "note": "The programs are in SpecNumber.lean, not in /repo. An example shows a modulus of 2^128 + 1 for which the power comes out wrong in a release build, and one that 369 divisions are needed."
 },
 "C77": {
  "note": "The client programs are in SpecSet.lean, not in /repo."
 },
 "C78": {
  "note": "The client programs are in SpecUnits.lean, not in /repo."
 },
 "C79": {
  "note": "The client programs are in SpecTricks.lean, not in /repo."
 },
 "C80": {
  "note": "The client program is in SpecAbi.lean, not in /repo."
 },
 "C81": {
  "note": "That the library is made from the module that rustc printed in this build is false: the exit status of rustc is not looked at (C81_stale, C81_stale_witness). C81_fresh_partial proves it when rustc reports success. All other clauses are proved for all environments."
 }
}