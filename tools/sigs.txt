?? Ethnum.I256.bytesOf_from_mv
?? Ethnum.I256.bytesOf_to_mv
?? Ethnum.I256.compressedOf_extend_mv
?? Ethnum.Serde.write_all_mv
?? Ethnum.U256.bytesOf_from_mv
?? Ethnum.U256.bytesOf_to_mv
?? Ethnum.fst_mv
?? Ethnum.getD_mv
Bytes 17 Ethnum.U256.to_be_bytes : Cfg → U256 → List U8
Bytes 19 Ethnum.U256.to_le_bytes : Cfg → U256 → List U8
Bytes 23 Ethnum.U256.from_be_bytes : Cfg → List U8 → U256
Bytes 25 Ethnum.U256.from_le_bytes : Cfg → List U8 → U256
Bytes 33 Ethnum.I256.to_be_bytes : Cfg → I256 → List U8
Bytes 35 Ethnum.I256.to_le_bytes : Cfg → I256 → List U8
Bytes 39 Ethnum.I256.from_be_bytes : Cfg → List U8 → I256
Bytes 41 Ethnum.I256.from_le_bytes : Cfg → List U8 → I256
Convert 11 Ethnum.PrimTy.MAX : (c : Cfg) → (t : PrimTy) → PrimTy.Val c t
Convert 15 Ethnum.PrimTy.MIN : (c : Cfg) → (t : PrimTy) → PrimTy.Val c t
Convert 24 Ethnum.U256.as_prim : (c : Cfg) → (t : PrimTy) → U256 → PrimTy.Val c t
Convert 27 Ethnum.U256.as_u32 : Cfg → U256 → U32
Convert 29 Ethnum.U256.as_u8 : Cfg → U256 → U8
Convert 32 Ethnum.U256.of_prim_as : (c : Cfg) → (t : PrimTy) → PrimTy.Val c t → U256
Convert 38 Ethnum.U256.of_bool : Cfg → Bool → U256
Convert 46 Ethnum.U256.from_prim : (c : Cfg) → (t : PrimTy) → PrimTy.Val c t → U256
Convert 53 Ethnum.U256.try_from_prim : (c : Cfg) → (t : PrimTy) → PrimTy.Val c t → Option U256
Convert 59 Ethnum.U256.try_from_i256 : Cfg → I256 → Option U256
Convert 63 Ethnum.U256.prim_try_from : (c : Cfg) → (t : PrimTy) → U256 → Option (PrimTy.Val c t)
Convert 72 Ethnum.I256.as_prim : (c : Cfg) → (t : PrimTy) → I256 → PrimTy.Val c t
Convert 75 Ethnum.I256.as_u32 : Cfg → I256 → U32
Convert 78 Ethnum.I256.of_prim_as : (c : Cfg) → (t : PrimTy) → PrimTy.Val c t → I256
Convert 83 Ethnum.I256.of_bool : Cfg → Bool → I256
Convert 89 Ethnum.I256.from_prim : (c : Cfg) → (t : PrimTy) → PrimTy.Val c t → I256
Convert 92 Ethnum.I256.try_from_u256 : Cfg → U256 → Option I256
Convert 96 Ethnum.I256.prim_try_from : (c : Cfg) → (t : PrimTy) → I256 → Option (PrimTy.Val c t)
DivMod 15 Ethnum.Intr.shl_nz : Cfg → U128 → U32 → Res U128
DivMod 22 Ethnum.Intr.shr_nz : Cfg → U128 → U32 → Res U128
DivMod 35 Ethnum.Intr.corrTest : Cfg → U128 → U128 → U128 → U128 → Res Bool
DivMod 44 Ethnum.Intr.corrLoop : Cfg → U128 → U128 → U128 → ℕ → U128 → U128 → Res U128
DivMod 56 Ethnum.Intr.normalize : Cfg → U128 → U128 → U128 → U32 → Res (U128 × U128 × U128)
DivMod 66 Ethnum.Intr.quotDigit : Cfg → U128 → U128 → U128 → U128 → Res U128
DivMod 73 Ethnum.Intr.udiv256_by_128_to_128 : Cfg → U128 → U128 → U128 → Res (U128 × U128)
DivMod 91 Ethnum.Intr.full_shl : Cfg → U256 → U32 → Res (U128 × U128 × U128)
DivMod 98 Ethnum.Intr.full_shr : Cfg → U128 × U128 × U128 → U32 → Res U256
DivMod 114 Ethnum.Intr.fullmul_u128 : Cfg → U128 → U128 → Res (U128 × U128)
DivMod 128 Ethnum.Intr.fullmul_u256_u128 : Cfg → U256 → U128 → Res (U128 × U128 × U128)
DivMod 152 Ethnum.Intr.knuthLoop : Cfg → U128 → U128 → U128 → ℕ → U128 → U128 → Res U128
DivMod 166 Ethnum.Intr.knuthQhat : Cfg → U128 → U128 → U128 → U128 → U128 → Res U128
DivMod 173 Ethnum.Intr.knuthSub : Cfg → U128 → U128 → U128 → U256 → U128 → Res (U128 × U128 × U128 × U128)
DivMod 189 Ethnum.Intr.knuthCheck : Cfg → U128 → Res Unit
DivMod 196 Ethnum.Intr.div_mod_knuth : Cfg → U256 → U256 → Res (U256 × U256)
DivMod 219 Ethnum.Intr.udivmodNarrow : Cfg → U256 → U256 → Res (U256 × U256)
DivMod 234 Ethnum.Intr.udivmod4 : Cfg → U256 → U256 → Bool → Res (U256 × Option U256)
DivMod 256 Ethnum.Intr.assumeInit : {α : Type} → Option α → Res α
DivMod 261 Ethnum.Intr.udiv2 : Cfg → U256 → U256 → Res U256
DivMod 266 Ethnum.Intr.udiv3 : Cfg → U256 → U256 → Res U256
DivMod 271 Ethnum.Intr.urem2 : Cfg → U256 → U256 → Res U256
DivMod 276 Ethnum.Intr.urem3 : Cfg → U256 → U256 → Res U256
DivMod 281 Ethnum.Intr.idivmod4 : Cfg → I256 → I256 → Bool → Res (I256 × Option I256)
DivMod 296 Ethnum.Intr.idiv2 : Cfg → I256 → I256 → Res I256
DivMod 301 Ethnum.Intr.idiv3 : Cfg → I256 → I256 → Res I256
DivMod 306 Ethnum.Intr.irem2 : Cfg → I256 → I256 → Res I256
DivMod 311 Ethnum.Intr.irem3 : Cfg → I256 → I256 → Res I256
Float 38 Ethnum.FloatTy.shr : Cfg → {w : ℕ} → BitVec w → BitVec w → Res (BitVec w)
Float 46 Ethnum.U256.of_float : Cfg → (t : FloatTy) → t.Val → Res U256
Float 59 Ethnum.U256.as_f32 : Cfg → U256 → FloatTy.f32.Val
Float 67 Ethnum.U256.as_f64 : Cfg → U256 → FloatTy.f64.Val
Float 76 Ethnum.I256.of_float : Cfg → (t : FloatTy) → t.Val → Res I256
Float 93 Ethnum.I256.as_f64 : Cfg → I256 → FloatTy.f64.Val
Float 98 Ethnum.I256.as_f32 : Cfg → I256 → FloatTy.f32.Val
Fmt 105 Ethnum.Radix.digit : Cfg → Radix → U8 → Res U8
Fmt 119 Ethnum.Radix.loop : Cfg → Radix → U256 → ℕ → U256 → Buf → Res (ℕ × Buf)
Fmt 130 Ethnum.Radix.fmt_u256 : Cfg → Radix → U256 → Bool → Formatter → Res (List Char)
Fmt 152 Ethnum.isizeC : Cfg → ℤ → Panic → Res ℤ
Fmt 159 Ethnum.isizeShl1 : Cfg → ℤ → ℤ
Fmt 172 Ethnum.U256.as_isize : Cfg → U256 → ℤ
Fmt 175 Ethnum.decLoop : Cfg → ℕ → U256 → ℤ → Buf → Res (U256 × ℤ × Buf)
Fmt 190 Ethnum.decTail : Cfg → ℤ → ℤ → Buf → Res (ℤ × Buf)
Fmt 210 Ethnum.fmt_u256 : Cfg → U256 → Bool → Formatter → Res (List Char)
Fmt 223 Ethnum.U256.display : Cfg → U256 → Formatter → Res (List Char)
Fmt 229 Ethnum.U256.fmtRadix : Cfg → Radix → U256 → Formatter → Res (List Char)
Fmt 234 Ethnum.U256.debug : Cfg → U256 → Formatter → Res (List Char)
Fmt 242 Ethnum.I256.display : Cfg → I256 → Formatter → Res (List Char)
Fmt 248 Ethnum.I256.fmtRadix : Cfg → Radix → I256 → Formatter → Res (List Char)
Fmt 253 Ethnum.I256.debug : Cfg → I256 → Formatter → Res (List Char)
IntApi 12 Ethnum.I256.count_ones : Cfg → I256 → Res U32
IntApi 14 Ethnum.I256.count_zeros : Cfg → I256 → Res U32
IntApi 16 Ethnum.I256.leading_zeros : Cfg → I256 → Res U32
IntApi 18 Ethnum.I256.trailing_zeros : Cfg → I256 → Res U32
IntApi 20 Ethnum.I256.leading_ones : Cfg → I256 → Res U32
IntApi 22 Ethnum.I256.trailing_ones : Cfg → I256 → Res U32
IntApi 24 Ethnum.I256.rotate_left : Cfg → I256 → U32 → Res I256
IntApi 26 Ethnum.I256.rotate_right : Cfg → I256 → U32 → Res I256
IntApi 28 Ethnum.I256.swap_bytes : I256 → I256
IntApi 30 Ethnum.I256.reverse_bits : I256 → I256
IntApi 43 Ethnum.I256.signum128 : Cfg → I256 → U128
IntApi 46 Ethnum.I256.signum : Cfg → I256 → I256
IntApi 48 Ethnum.I256.is_positive : Cfg → I256 → Bool
IntApi 50 Ethnum.I256.is_negative : Cfg → I256 → Bool
IntApi 53 Ethnum.I256.overflowing_add : Cfg → I256 → I256 → I256 × Bool
IntApi 55 Ethnum.I256.wrapping_add : Cfg → I256 → I256 → I256
IntApi 57 Ethnum.I256.checked_add : Cfg → I256 → I256 → Option I256
IntApi 59 Ethnum.I256.saturating_add : Cfg → I256 → I256 → I256
IntApi 65 Ethnum.I256.overflowing_sub : Cfg → I256 → I256 → I256 × Bool
IntApi 67 Ethnum.I256.checked_sub : Cfg → I256 → I256 → Option I256
IntApi 69 Ethnum.I256.saturating_sub : Cfg → I256 → I256 → I256
IntApi 75 Ethnum.I256.overflowing_add_unsigned : Cfg → I256 → U256 → I256 × Bool
IntApi 80 Ethnum.I256.checked_add_unsigned : Cfg → I256 → U256 → Option I256
IntApi 83 Ethnum.I256.saturating_add_unsigned : Cfg → I256 → U256 → I256
IntApi 88 Ethnum.I256.wrapping_add_unsigned : Cfg → I256 → U256 → I256
IntApi 90 Ethnum.I256.overflowing_sub_unsigned : Cfg → I256 → U256 → I256 × Bool
IntApi 95 Ethnum.I256.checked_sub_unsigned : Cfg → I256 → U256 → Option I256
IntApi 98 Ethnum.I256.saturating_sub_unsigned : Cfg → I256 → U256 → I256
IntApi 103 Ethnum.I256.wrapping_sub_unsigned : Cfg → I256 → U256 → I256
IntApi 106 Ethnum.I256.overflowing_neg : Cfg → I256 → Res (I256 × Bool)
IntApi 109 Ethnum.I256.checked_neg : Cfg → I256 → Res (Option I256)
IntApi 111 Ethnum.I256.saturating_neg : Cfg → I256 → I256
IntApi 113 Ethnum.I256.wrapping_neg : Cfg → I256 → I256
IntApi 116 Ethnum.I256.checked_abs : Cfg → I256 → Res (Option I256)
IntApi 119 Ethnum.I256.saturating_abs : Cfg → I256 → I256
IntApi 121 Ethnum.I256.wrapping_abs : Cfg → I256 → I256
IntApi 123 Ethnum.I256.unsigned_abs : Cfg → I256 → U256
IntApi 125 Ethnum.I256.overflowing_abs : Cfg → I256 → I256 × Bool
IntApi 127 Ethnum.I256.abs : Cfg → I256 → Res I256
IntApi 130 Ethnum.I256.abs_diff : Cfg → I256 → I256 → U256
IntApi 134 Ethnum.I256.overflowing_mul : Cfg → I256 → I256 → Res (I256 × Bool)
IntApi 136 Ethnum.I256.wrapping_mul : Cfg → I256 → I256 → Res I256
IntApi 138 Ethnum.I256.checked_mul : Cfg → I256 → I256 → Res (Option I256)
IntApi 140 Ethnum.I256.saturating_mul : Cfg → I256 → I256 → Res I256
IntApi 146 Ethnum.I256.minByMinusOne : Cfg → I256 → I256 → Bool
IntApi 149 Ethnum.I256.div_euclid : Cfg → I256 → I256 → Res I256
IntApi 156 Ethnum.I256.rem_euclid : Cfg → I256 → I256 → Res I256
IntApi 163 Ethnum.I256.checked_div : Cfg → I256 → I256 → Res (Option I256)
IntApi 166 Ethnum.I256.checked_div_euclid : Cfg → I256 → I256 → Res (Option I256)
IntApi 169 Ethnum.I256.checked_rem : Cfg → I256 → I256 → Res (Option I256)
IntApi 172 Ethnum.I256.checked_rem_euclid : Cfg → I256 → I256 → Res (Option I256)
IntApi 176 Ethnum.I256.overflowing_div : Cfg → I256 → I256 → Res (I256 × Bool)
IntApi 179 Ethnum.I256.overflowing_div_euclid : Cfg → I256 → I256 → Res (I256 × Bool)
IntApi 182 Ethnum.I256.overflowing_rem : Cfg → I256 → I256 → Res (I256 × Bool)
IntApi 185 Ethnum.I256.overflowing_rem_euclid : Cfg → I256 → I256 → Res (I256 × Bool)
IntApi 188 Ethnum.I256.wrapping_div : Cfg → I256 → I256 → Res I256
IntApi 190 Ethnum.I256.wrapping_div_euclid : Cfg → I256 → I256 → Res I256
IntApi 192 Ethnum.I256.wrapping_rem : Cfg → I256 → I256 → Res I256
IntApi 194 Ethnum.I256.wrapping_rem_euclid : Cfg → I256 → I256 → Res I256
IntApi 196 Ethnum.I256.saturating_div : Cfg → I256 → I256 → Res I256
IntApi 202 Ethnum.I256.wrapping_div_rem : Cfg → I256 → I256 → Res (I256 × I256)
IntApi 211 Ethnum.I256.div_rem : Cfg → I256 → I256 → Res (I256 × I256)
IntApi 214 Ethnum.I256.checked_div_rem : Cfg → I256 → I256 → Res (Option (I256 × I256))
IntApi 221 Ethnum.I256.overflowing_div_rem : Cfg → I256 → I256 → Res (I256 × I256 × Bool)
IntApi 227 Ethnum.I256.saturating_div_rem : Cfg → I256 → I256 → Res (I256 × I256)
IntApi 233 Ethnum.I256.euclidCheck : Cfg → I256 → U256 → Res Unit
IntApi 240 Ethnum.I256.euclidQuot : Cfg → Bool → Bool → I256 → Res I256
IntApi 248 Ethnum.I256.wrapping_div_rem_euclid : Cfg → I256 → I256 → Res (I256 × I256)
IntApi 262 Ethnum.I256.div_rem_euclid : Cfg → I256 → I256 → Res (I256 × I256)
IntApi 265 Ethnum.I256.checked_div_rem_euclid : Cfg → I256 → I256 → Res (Option (I256 × I256))
IntApi 271 Ethnum.I256.overflowing_div_rem_euclid : Cfg → I256 → I256 → Res (I256 × I256 × Bool)
IntApi 277 Ethnum.I256.saturating_div_rem_euclid : Cfg → I256 → I256 → Res (I256 × I256)
IntApi 283 Ethnum.I256.wrapping_shl : Cfg → I256 → U32 → Res I256
IntApi 285 Ethnum.I256.wrapping_shr : Cfg → I256 → U32 → Res I256
IntApi 287 Ethnum.I256.overflowing_shl : Cfg → I256 → U32 → Res (I256 × Bool)
IntApi 290 Ethnum.I256.overflowing_shr : Cfg → I256 → U32 → Res (I256 × Bool)
IntApi 293 Ethnum.I256.checked_shl : Cfg → I256 → U32 → Res (Option I256)
IntApi 295 Ethnum.I256.checked_shr : Cfg → I256 → U32 → Res (Option I256)
IntApi 298 Ethnum.I256.checked_pow_loop : Cfg → ℕ → U32 → I256 → I256 → Res (Option (I256 × I256))
IntApi 312 Ethnum.I256.checked_pow : Cfg → I256 → U32 → Res (Option I256)
IntApi 320 Ethnum.I256.saturating_pow : Cfg → I256 → U32 → Res I256
IntApi 326 Ethnum.I256.wrapping_pow_loop : Cfg → ℕ → U32 → I256 → I256 → Res (I256 × I256)
IntApi 336 Ethnum.I256.wrapping_pow : Cfg → I256 → U32 → Res I256
IntApi 343 Ethnum.I256.overflowing_pow_loop : Cfg → ℕ → U32 → I256 → I256 → Bool → Res (I256 × I256 × Bool)
IntApi 356 Ethnum.I256.overflowing_pow : Cfg → I256 → U32 → Res (I256 × Bool)
IntApi 364 Ethnum.I256.pow_loop : Cfg → ℕ → U32 → I256 → I256 → Res (I256 × I256)
IntApi 374 Ethnum.I256.pow : Cfg → I256 → U32 → Res I256
IntApi 381 Ethnum.I256.sum : Cfg → List I256 → Res I256
IntApi 383 Ethnum.I256.product : Cfg → List I256 → Res I256
Intrinsics 14 Ethnum.Intr.add2 : Cfg → U256 → U256 → U256
Intrinsics 20 Ethnum.Intr.add3 : Cfg → U256 → U256 → U256
Intrinsics 26 Ethnum.Intr.uaddc : Cfg → U256 → U256 → U256 × Bool
Intrinsics 33 Ethnum.Intr.iaddc : Cfg → I256 → I256 → I256 × Bool
Intrinsics 38 Ethnum.Intr.sub2 : Cfg → U256 → U256 → U256
Intrinsics 44 Ethnum.Intr.sub3 : Cfg → U256 → U256 → U256
Intrinsics 50 Ethnum.Intr.usubc : Cfg → U256 → U256 → U256 × Bool
Intrinsics 57 Ethnum.Intr.isubc : Cfg → I256 → I256 → I256 × Bool
Intrinsics 65 Ethnum.Intr.umulddi3 : Cfg → U128 → U128 → Res U256
Intrinsics 81 Ethnum.Intr.mul3 : Cfg → U256 → U256 → Res U256
Intrinsics 88 Ethnum.Intr.mul2 : Cfg → U256 → U256 → Res U256
Intrinsics 91 Ethnum.Intr.umulc : Cfg → U256 → U256 → Res (U256 × Bool)
Intrinsics 102 Ethnum.Intr.shl2 : Cfg → U256 → U32 → Res U256
Intrinsics 114 Ethnum.Intr.shl3 : Cfg → U256 → U32 → Res U256
Intrinsics 126 Ethnum.Intr.shr2 : Cfg → U256 → U32 → Res U256
Intrinsics 138 Ethnum.Intr.shr3 : Cfg → U256 → U32 → Res U256
Intrinsics 150 Ethnum.Intr.sar2 : Cfg → I256 → U32 → Res I256
Intrinsics 163 Ethnum.Intr.sar3 : Cfg → I256 → U32 → Res I256
Intrinsics 176 Ethnum.Intr.ctlz : Cfg → U256 → Res U32
Intrinsics 181 Ethnum.Intr.cttz : Cfg → U256 → Res U32
Intrinsics 186 Ethnum.Intr.iadd2 : Cfg → I256 → I256 → I256
Intrinsics 188 Ethnum.Intr.iadd3 : Cfg → I256 → I256 → I256
Intrinsics 190 Ethnum.Intr.isub2 : Cfg → I256 → I256 → I256
Intrinsics 192 Ethnum.Intr.isub3 : Cfg → I256 → I256 → I256
Intrinsics 194 Ethnum.Intr.imul2 : Cfg → I256 → I256 → Res I256
Intrinsics 196 Ethnum.Intr.imul3 : Cfg → I256 → I256 → Res I256
Intrinsics 198 Ethnum.Intr.ishl2 : Cfg → I256 → U32 → Res I256
Intrinsics 200 Ethnum.Intr.ishl3 : Cfg → I256 → U32 → Res I256
Intrinsics 202 Ethnum.Intr.ictlz : Cfg → I256 → Res U32
Intrinsics 204 Ethnum.Intr.icttz : Cfg → I256 → Res U32
Intrinsics 211 Ethnum.U256.not : U256 → U256
Intrinsics 213 Ethnum.U256.bitand : U256 → U256 → U256
Intrinsics 215 Ethnum.U256.bitor : U256 → U256 → U256
Intrinsics 217 Ethnum.U256.bitxor : U256 → U256 → U256
Intrinsics 220 Ethnum.U256.shl : Cfg → U256 → U32 → Res U256
Intrinsics 224 Ethnum.U256.shr : Cfg → U256 → U32 → Res U256
Intrinsics 232 Ethnum.I256.not : I256 → I256
Intrinsics 234 Ethnum.I256.bitand : I256 → I256 → I256
Intrinsics 236 Ethnum.I256.bitor : I256 → I256 → I256
Intrinsics 238 Ethnum.I256.bitxor : I256 → I256 → I256
Intrinsics 241 Ethnum.I256.shl : Cfg → I256 → U32 → Res I256
Intrinsics 245 Ethnum.I256.shr : Cfg → I256 → U32 → Res I256
Intrinsics 249 Ethnum.I256.wrapping_sub : Cfg → I256 → I256 → I256
Intrinsics 256 Ethnum.Intr.rol3 : Cfg → U256 → U32 → Res U256
Intrinsics 262 Ethnum.Intr.ror3 : Cfg → U256 → U32 → Res U256
Intrinsics 268 Ethnum.Intr.irol3 : Cfg → I256 → U32 → Res I256
Intrinsics 270 Ethnum.Intr.iror3 : Cfg → I256 → U32 → Res I256
Ops 15 Ethnum.U256.add : Cfg → U256 → U256 → Res U256
Ops 22 Ethnum.U256.sub : Cfg → U256 → U256 → Res U256
Ops 29 Ethnum.U256.mul : Cfg → U256 → U256 → Res U256
Ops 36 Ethnum.U256.div : Cfg → U256 → U256 → Res U256
Ops 40 Ethnum.U256.rem : Cfg → U256 → U256 → Res U256
Ops 44 Ethnum.U256.add_assign : Cfg → U256 → U256 → Res U256
Ops 47 Ethnum.U256.sub_assign : Cfg → U256 → U256 → Res U256
Ops 50 Ethnum.U256.mul_assign : Cfg → U256 → U256 → Res U256
Ops 53 Ethnum.U256.div_assign : Cfg → U256 → U256 → Res U256
Ops 56 Ethnum.U256.rem_assign : Cfg → U256 → U256 → Res U256
Ops 59 Ethnum.U256.shl_assign : Cfg → U256 → U32 → Res U256
Ops 62 Ethnum.U256.shr_assign : Cfg → U256 → U32 → Res U256
Ops 65 Ethnum.U256.bitand_assign : U256 → U256 → U256
Ops 67 Ethnum.U256.bitor_assign : U256 → U256 → U256
Ops 69 Ethnum.U256.bitxor_assign : U256 → U256 → U256
Ops 83 Ethnum.I256.div : Cfg → I256 → I256 → Res I256
Ops 87 Ethnum.I256.rem : Cfg → I256 → I256 → Res I256
Ops 91 Ethnum.I256.neg : Cfg → I256 → Res I256
Ops 98 Ethnum.Intr.imulc : Cfg → I256 → I256 → Res (I256 × Bool)
Ops 118 Ethnum.I256.add : Cfg → I256 → I256 → Res I256
Ops 125 Ethnum.I256.sub : Cfg → I256 → I256 → Res I256
Ops 132 Ethnum.I256.mul : Cfg → I256 → I256 → Res I256
Ops 139 Ethnum.I256.add_assign : Cfg → I256 → I256 → Res I256
Ops 142 Ethnum.I256.sub_assign : Cfg → I256 → I256 → Res I256
Ops 145 Ethnum.I256.mul_assign : Cfg → I256 → I256 → Res I256
Ops 148 Ethnum.I256.div_assign : Cfg → I256 → I256 → Res I256
Ops 151 Ethnum.I256.rem_assign : Cfg → I256 → I256 → Res I256
Ops 154 Ethnum.I256.shl_assign : Cfg → I256 → U32 → Res I256
Ops 157 Ethnum.I256.shr_assign : Cfg → I256 → U32 → Res I256
Ops 160 Ethnum.I256.bitand_assign : I256 → I256 → I256
Ops 162 Ethnum.I256.bitor_assign : I256 → I256 → I256
Ops 164 Ethnum.I256.bitxor_assign : I256 → I256 → I256
Ops 181 Ethnum.shiftAmountPrim : (c : Cfg) → (t : PrimTy) → PrimTy.Val c t → U32
Ops 191 Ethnum.shiftAmountU : Cfg → U256 → U32
Ops 195 Ethnum.shiftAmountI : Cfg → I256 → U32
Ops 207 Ethnum.ShiftBy.amount : {c : Cfg} → ShiftBy c → U32
Ops 213 Ethnum.U256.shlBy : (c : Cfg) → U256 → ShiftBy c → Res U256
Ops 215 Ethnum.U256.shrBy : (c : Cfg) → U256 → ShiftBy c → Res U256
Ops 217 Ethnum.I256.shlBy : (c : Cfg) → I256 → ShiftBy c → Res I256
Ops 219 Ethnum.I256.shrBy : (c : Cfg) → I256 → ShiftBy c → Res I256
Ops 221 Ethnum.U256.shlAssignBy : (c : Cfg) → U256 → ShiftBy c → Res U256
Ops 223 Ethnum.U256.shrAssignBy : (c : Cfg) → U256 → ShiftBy c → Res U256
Ops 225 Ethnum.I256.shlAssignBy : (c : Cfg) → I256 → ShiftBy c → Res I256
Ops 227 Ethnum.I256.shrAssignBy : (c : Cfg) → I256 → ShiftBy c → Res I256
Parse 61 Ethnum.uncheckedLoop : {T : Type} → RadixHelper T → (T → T → Res T) → U32 → List U8 → T → Res (ParseResult T)
Parse 72 Ethnum.checkedLoop : {T : Type} → RadixHelper T → (T → U32 → Option T) → IntErrorKind → U32 → List U8 → T → Res (ParseResult T)
Parse 98 Ethnum.from_str_radix : {T : Type} → RadixHelper T → List U8 → U32 → Option (List U8) → Res (ParseResult T)
Parse 129 Ethnum.orElse : {T : Type} → Res (ParseResult T) → Res (ParseResult T) → Res (ParseResult T)
Parse 135 Ethnum.from_str_prefixed : {T : Type} → RadixHelper T → List U8 → Res (ParseResult T)
Parse 155 Ethnum.U256.from_str_radix : Cfg → List U8 → U32 → Res (ParseResult U256)
Parse 158 Ethnum.U256.from_str : Cfg → List U8 → Res (ParseResult U256)
Parse 160 Ethnum.U256.from_str_hex : Cfg → List U8 → Res (ParseResult U256)
Parse 163 Ethnum.U256.from_str_prefixed : Cfg → List U8 → Res (ParseResult U256)
Parse 180 Ethnum.I256.from_str_radix : Cfg → List U8 → U32 → Res (ParseResult I256)
Parse 183 Ethnum.I256.from_str : Cfg → List U8 → Res (ParseResult I256)
Parse 185 Ethnum.I256.from_str_hex : Cfg → List U8 → Res (ParseResult I256)
Parse 188 Ethnum.I256.from_str_prefixed : Cfg → List U8 → Res (ParseResult I256)
Parse 199 Ethnum.Const.add : Cfg → U256 → U8 → Res U256
Parse 207 Ethnum.Const.mul : Cfg → U256 → U128 → Res U256
Parse 225 Ethnum.Const.nextDigit : Cfg → U8 → U128 → Res (Option U8)
Parse 236 Ethnum.Const.loop : Cfg → U128 → List U8 → U256 → Res U256
Parse 258 Ethnum.Const.from_str_prefixed : Cfg → List U8 → Res U256
Parse 268 Ethnum.U256.const_from_str_prefixed : Cfg → List U8 → Res U256
Parse 274 Ethnum.I256.const_from_str_prefixed : Cfg → List U8 → Res I256
Serde 83 Ethnum.Serde.Visitor.call : {T : Type} → Serde.Visitor T → Serde.Input → Res (Serde.Outcome T)
Serde 200 Ethnum.Serde.serialize_text : Cfg → Serde.Chunking → ℕ → List Char → Res Serde.Datum
Serde 211 Ethnum.Serde.format_visit_str : {T : Type} → (List U8 → Res (ParseResult T)) → List U8 → Res (Serde.Outcome T)
Serde 230 Ethnum.Serde.permissive_f64 : Cfg → {T : Type} → (I256 → T) → FloatTy.f64.Val → Res (Serde.Outcome T)
Serde 285 Ethnum.Serde.bytes_visit_seq : {T : Type} → Serde.Bytes T → Option ℕ → List (Option U8) → Res (Serde.Outcome T)
Serde 328 Ethnum.Serde.keep : Cfg → Serde.Order → List U8 → ℕ → Res (List U8)
Serde 353 Ethnum.Serde.compressed_visit_bytes : Cfg → {T : Type} → Serde.Order → Serde.Bytes T → Serde.CompressedBytes T → List U8 → Res (Serde.Outcome T)
Serde 415 Ethnum.U256.serialize : Cfg → Serde.Chunking → U256 → Res Serde.Datum
Serde 417 Ethnum.U256.deserialize : Cfg → Serde.Input → Res (Serde.Outcome U256)
Serde 419 Ethnum.U256.serialize_decimal : Cfg → Serde.Chunking → U256 → Res Serde.Datum
Serde 421 Ethnum.U256.deserialize_decimal : Cfg → Serde.Input → Res (Serde.Outcome U256)
Serde 423 Ethnum.U256.deserialize_prefixed : Cfg → Serde.Input → Res (Serde.Outcome U256)
Serde 425 Ethnum.U256.deserialize_permissive : Cfg → Serde.Input → Res (Serde.Outcome U256)
Serde 433 Ethnum.U256.serialize_bytes : Cfg → Serde.Order → U256 → Res Serde.Datum
Serde 435 Ethnum.U256.deserialize_bytes : Cfg → Serde.Order → Serde.Input → Res (Serde.Outcome U256)
Serde 437 Ethnum.U256.serialize_compressed : Cfg → Serde.Order → U256 → Res Serde.Datum
Serde 439 Ethnum.U256.deserialize_compressed : Cfg → Serde.Order → Serde.Input → Res (Serde.Outcome U256)
Serde 447 Ethnum.I256.serialize : Cfg → Serde.Chunking → I256 → Res Serde.Datum
Serde 449 Ethnum.I256.deserialize : Cfg → Serde.Input → Res (Serde.Outcome I256)
Serde 451 Ethnum.I256.serialize_decimal : Cfg → Serde.Chunking → I256 → Res Serde.Datum
Serde 453 Ethnum.I256.deserialize_decimal : Cfg → Serde.Input → Res (Serde.Outcome I256)
Serde 455 Ethnum.I256.deserialize_prefixed : Cfg → Serde.Input → Res (Serde.Outcome I256)
Serde 457 Ethnum.I256.deserialize_permissive : Cfg → Serde.Input → Res (Serde.Outcome I256)
Serde 463 Ethnum.I256.leading_bits : Cfg → I256 → Res U32
Serde 468 Ethnum.I256.serialize_bytes : Cfg → Serde.Order → I256 → Res Serde.Datum
Serde 470 Ethnum.I256.deserialize_bytes : Cfg → Serde.Order → Serde.Input → Res (Serde.Outcome I256)
Serde 472 Ethnum.I256.serialize_compressed : Cfg → Serde.Order → I256 → Res Serde.Datum
Serde 474 Ethnum.I256.deserialize_compressed : Cfg → Serde.Order → Serde.Input → Res (Serde.Outcome I256)
Spec 10 Ethnum.U256.toNat : Cfg → U256 → ℕ
Spec 15 Ethnum.U256.ofNat : Cfg → ℕ → U256
Spec 23 Ethnum.I256.toNat : Cfg → I256 → ℕ
Spec 27 Ethnum.I256.toInt : Cfg → I256 → ℤ
UintApi 11 Ethnum.U256.checkedOf : {α : Type} → α × Bool → Option α
UintApi 14 Ethnum.U256.count_ones : Cfg → U256 → Res U32
UintApi 16 Ethnum.U256.count_zeros : Cfg → U256 → Res U32
UintApi 18 Ethnum.U256.leading_zeros : Cfg → U256 → Res U32
UintApi 20 Ethnum.U256.trailing_zeros : Cfg → U256 → Res U32
UintApi 22 Ethnum.U256.leading_ones : Cfg → U256 → Res U32
UintApi 24 Ethnum.U256.trailing_ones : Cfg → U256 → Res U32
UintApi 26 Ethnum.U256.rotate_left : Cfg → U256 → U32 → Res U256
UintApi 28 Ethnum.U256.rotate_right : Cfg → U256 → U32 → Res U256
UintApi 30 Ethnum.U256.swap_bytes : U256 → U256
UintApi 32 Ethnum.U256.reverse_bits : U256 → U256
UintApi 43 Ethnum.U256.overflowing_add : Cfg → U256 → U256 → U256 × Bool
UintApi 45 Ethnum.U256.wrapping_add : Cfg → U256 → U256 → U256
UintApi 47 Ethnum.U256.checked_add : Cfg → U256 → U256 → Option U256
UintApi 49 Ethnum.U256.saturating_add : Cfg → U256 → U256 → U256
UintApi 52 Ethnum.U256.overflowing_add_signed : Cfg → U256 → I256 → U256 × Bool
UintApi 56 Ethnum.U256.checked_add_signed : Cfg → U256 → I256 → Option U256
UintApi 59 Ethnum.U256.saturating_add_signed : Cfg → U256 → I256 → U256
UintApi 63 Ethnum.U256.wrapping_add_signed : Cfg → U256 → I256 → U256
UintApi 66 Ethnum.U256.overflowing_sub : Cfg → U256 → U256 → U256 × Bool
UintApi 68 Ethnum.U256.wrapping_sub : Cfg → U256 → U256 → U256
UintApi 70 Ethnum.U256.checked_sub : Cfg → U256 → U256 → Option U256
UintApi 72 Ethnum.U256.saturating_sub : Cfg → U256 → U256 → U256
UintApi 74 Ethnum.U256.abs_diff : Cfg → U256 → U256 → Res U256
UintApi 77 Ethnum.U256.overflowing_neg : Cfg → U256 → U256 × Bool
UintApi 79 Ethnum.U256.wrapping_neg : Cfg → U256 → U256
UintApi 81 Ethnum.U256.checked_neg : Cfg → U256 → Option U256
UintApi 84 Ethnum.U256.overflowing_mul : Cfg → U256 → U256 → Res (U256 × Bool)
UintApi 86 Ethnum.U256.wrapping_mul : Cfg → U256 → U256 → Res U256
UintApi 88 Ethnum.U256.checked_mul : Cfg → U256 → U256 → Res (Option U256)
UintApi 90 Ethnum.U256.saturating_mul : Cfg → U256 → U256 → Res U256
UintApi 93 Ethnum.U256.div_euclid : Cfg → U256 → U256 → Res U256
UintApi 95 Ethnum.U256.rem_euclid : Cfg → U256 → U256 → Res U256
UintApi 97 Ethnum.U256.checked_div : Cfg → U256 → U256 → Res (Option U256)
UintApi 100 Ethnum.U256.checked_div_euclid : Cfg → U256 → U256 → Res (Option U256)
UintApi 103 Ethnum.U256.checked_rem : Cfg → U256 → U256 → Res (Option U256)
UintApi 106 Ethnum.U256.checked_rem_euclid : Cfg → U256 → U256 → Res (Option U256)
UintApi 109 Ethnum.U256.wrapping_div : Cfg → U256 → U256 → Res U256
UintApi 111 Ethnum.U256.wrapping_div_euclid : Cfg → U256 → U256 → Res U256
UintApi 113 Ethnum.U256.wrapping_rem : Cfg → U256 → U256 → Res U256
UintApi 115 Ethnum.U256.wrapping_rem_euclid : Cfg → U256 → U256 → Res U256
UintApi 117 Ethnum.U256.saturating_div : Cfg → U256 → U256 → Res U256
UintApi 119 Ethnum.U256.overflowing_div : Cfg → U256 → U256 → Res (U256 × Bool)
UintApi 121 Ethnum.U256.overflowing_div_euclid : Cfg → U256 → U256 → Res (U256 × Bool)
UintApi 123 Ethnum.U256.overflowing_rem : Cfg → U256 → U256 → Res (U256 × Bool)
UintApi 125 Ethnum.U256.overflowing_rem_euclid : Cfg → U256 → U256 → Res (U256 × Bool)
UintApi 128 Ethnum.U256.div_rem : Cfg → U256 → U256 → Res (U256 × U256)
UintApi 141 Ethnum.U256.div_rem_euclid : Cfg → U256 → U256 → Res (U256 × U256)
UintApi 143 Ethnum.U256.checked_div_rem : Cfg → U256 → U256 → Res (Option (U256 × U256))
UintApi 151 Ethnum.U256.checked_div_rem_euclid : Cfg → U256 → U256 → Res (Option (U256 × U256))
UintApi 153 Ethnum.U256.saturating_div_rem : Cfg → U256 → U256 → Res (U256 × U256)
UintApi 155 Ethnum.U256.saturating_div_rem_euclid : Cfg → U256 → U256 → Res (U256 × U256)
UintApi 157 Ethnum.U256.wrapping_div_rem : Cfg → U256 → U256 → Res (U256 × U256)
UintApi 159 Ethnum.U256.wrapping_div_rem_euclid : Cfg → U256 → U256 → Res (U256 × U256)
UintApi 161 Ethnum.U256.overflowing_div_rem : Cfg → U256 → U256 → Res (U256 × U256 × Bool)
UintApi 165 Ethnum.U256.overflowing_div_rem_euclid : Cfg → U256 → U256 → Res (U256 × U256 × Bool)
UintApi 170 Ethnum.U256.wrapping_shl : Cfg → U256 → U32 → Res U256
UintApi 172 Ethnum.U256.wrapping_shr : Cfg → U256 → U32 → Res U256
UintApi 174 Ethnum.U256.overflowing_shl : Cfg → U256 → U32 → Res (U256 × Bool)
UintApi 177 Ethnum.U256.overflowing_shr : Cfg → U256 → U32 → Res (U256 × Bool)
UintApi 180 Ethnum.U256.checked_shl : Cfg → U256 → U32 → Res (Option U256)
UintApi 182 Ethnum.U256.checked_shr : Cfg → U256 → U32 → Res (Option U256)
UintApi 185 Ethnum.U256.checked_pow_loop : Cfg → ℕ → U32 → U256 → U256 → Res (Option (U32 × U256 × U256))
UintApi 200 Ethnum.U256.checked_pow : Cfg → U256 → U32 → Res (Option U256)
UintApi 206 Ethnum.U256.saturating_pow : Cfg → U256 → U32 → Res U256
UintApi 209 Ethnum.U256.wrapping_pow_loop : Cfg → ℕ → U32 → U256 → U256 → Res (U32 × U256 × U256)
UintApi 219 Ethnum.U256.wrapping_pow : Cfg → U256 → U32 → Res U256
UintApi 224 Ethnum.U256.overflowing_pow_loop : Cfg → ℕ → U32 → U256 → U256 → Bool → Res (U32 × U256 × U256 × Bool)
UintApi 237 Ethnum.U256.overflowing_pow : Cfg → U256 → U32 → Res (U256 × Bool)
UintApi 245 Ethnum.U256.pow_loop : Cfg → ℕ → U32 → U256 → U256 → Res (U32 × U256 × U256)
UintApi 255 Ethnum.U256.pow : Cfg → U256 → U32 → Res U256
UintApi 260 Ethnum.U256.is_power_of_two : Cfg → U256 → Res Bool
UintApi 263 Ethnum.U256.one_less_than_next_power_of_two : Cfg → U256 → Res U256
UintApi 271 Ethnum.U256.next_power_of_two : Cfg → U256 → Res U256
UintApi 275 Ethnum.U256.checked_next_power_of_two : Cfg → U256 → Res (Option U256)
UintApi 279 Ethnum.U256.sum : Cfg → List U256 → Res U256
UintApi 281 Ethnum.U256.product : Cfg → List U256 → Res U256
Words 25 Ethnum.U256.from_words : Cfg → U128 → U128 → U256
Words 29 Ethnum.U256.into_words : Cfg → U256 → U128 × U128
Words 33 Ethnum.U256.low : Cfg → U256 → U128
Words 36 Ethnum.U256.high : Cfg → U256 → U128
Words 39 Ethnum.U256.set_low : Cfg → U256 → U128 → U256
Words 43 Ethnum.U256.set_high : Cfg → U256 → U128 → U256
Words 47 Ethnum.U256.new : Cfg → U128 → U256
Words 50 Ethnum.U256.ZERO : U256
Words 52 Ethnum.U256.ONE : Cfg → U256
Words 54 Ethnum.U256.MIN : U256
Words 56 Ethnum.U256.MAX : U256
Words 61 Ethnum.U256.cmp : Cfg → U256 → U256 → Ordering
Words 66 Ethnum.U256.eq : Cfg → U256 → U256 → Bool
Words 70 Ethnum.U256.ne : Cfg → U256 → U256 → Bool
Words 72 Ethnum.U256.partial_cmp : Cfg → U256 → U256 → Option Ordering
Words 74 Ethnum.U256.lt : Cfg → U256 → U256 → Bool
Words 76 Ethnum.U256.le : Cfg → U256 → U256 → Bool
Words 78 Ethnum.U256.gt : Cfg → U256 → U256 → Bool
Words 80 Ethnum.U256.ge : Cfg → U256 → U256 → Bool
Words 83 Ethnum.U256.eq_prim : Cfg → U256 → U128 → Bool
Words 85 Ethnum.U256.prim_eq : Cfg → U128 → U256 → Bool
Words 87 Ethnum.U256.partial_cmp_prim : Cfg → U256 → U128 → Option Ordering
Words 89 Ethnum.U256.prim_partial_cmp : Cfg → U128 → U256 → Option Ordering
Words 91 Ethnum.U256.lt_prim : Cfg → U256 → U128 → Bool
Words 93 Ethnum.U256.le_prim : Cfg → U256 → U128 → Bool
Words 96 Ethnum.U256.gt_prim : Cfg → U256 → U128 → Bool
Words 98 Ethnum.U256.ge_prim : Cfg → U256 → U128 → Bool
Words 111 Ethnum.I256.from_words : Cfg → U128 → U128 → I256
Words 115 Ethnum.I256.into_words : Cfg → I256 → U128 × U128
Words 119 Ethnum.I256.low : Cfg → I256 → U128
Words 122 Ethnum.I256.high : Cfg → I256 → U128
Words 125 Ethnum.I256.set_low : Cfg → I256 → U128 → I256
Words 129 Ethnum.I256.set_high : Cfg → I256 → U128 → I256
Words 133 Ethnum.I256.new : Cfg → U128 → I256
Words 136 Ethnum.I256.ZERO : I256
Words 138 Ethnum.I256.ONE : Cfg → I256
Words 140 Ethnum.I256.MINUS_ONE : Cfg → I256
Words 142 Ethnum.I256.MIN : Cfg → I256
Words 144 Ethnum.I256.MAX : Cfg → I256
Words 149 Ethnum.I256.as_u256 : I256 → U256
Words 152 Ethnum.I256.cmp : Cfg → I256 → I256 → Ordering
Words 157 Ethnum.I256.eq : Cfg → I256 → I256 → Bool
Words 161 Ethnum.I256.ne : Cfg → I256 → I256 → Bool
Words 163 Ethnum.I256.partial_cmp : Cfg → I256 → I256 → Option Ordering
Words 165 Ethnum.I256.lt : Cfg → I256 → I256 → Bool
Words 167 Ethnum.I256.le : Cfg → I256 → I256 → Bool
Words 169 Ethnum.I256.gt : Cfg → I256 → I256 → Bool
Words 171 Ethnum.I256.ge : Cfg → I256 → I256 → Bool
Words 174 Ethnum.I256.eq_prim : Cfg → I256 → U128 → Bool
Words 176 Ethnum.I256.prim_eq : Cfg → U128 → I256 → Bool
Words 178 Ethnum.I256.partial_cmp_prim : Cfg → I256 → U128 → Option Ordering
Words 180 Ethnum.I256.prim_partial_cmp : Cfg → U128 → I256 → Option Ordering
Words 182 Ethnum.I256.lt_prim : Cfg → I256 → U128 → Bool
Words 184 Ethnum.I256.le_prim : Cfg → I256 → U128 → Bool
Words 187 Ethnum.I256.gt_prim : Cfg → I256 → U128 → Bool
Words 189 Ethnum.I256.ge_prim : Cfg → I256 → U128 → Bool
Words 198 Ethnum.U256.as_i256 : U256 → I256
