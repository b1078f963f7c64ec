import Verif.Proofs.Endian.Parse
import Verif.Props.Bytes

namespace Ethnum

theorem U256.toNat_mv (c : Cfg) (x : U256) : (mv x).toNat c.other = x.toNat c := by
  rcases c with ⟨_ | _, _, _, _⟩ <;> rfl
theorem U256.ofNat_mv (c : Cfg) (n : Nat) : mv (U256.ofNat c n) = U256.ofNat c.other n := by
  rcases c with ⟨_ | _, _, _, _⟩ <;> rfl
theorem I256.toNat_mv (c : Cfg) (x : I256) : (mv x).toNat c.other = x.toNat c := by
  rcases c with ⟨_ | _, _, _, _⟩ <;> rfl
theorem I256.toInt_mv (c : Cfg) (x : I256) : (mv x).toInt c.other = x.toInt c := by
  unfold I256.toInt; rw [I256.toNat_mv]

namespace U256
@[mv_push] theorem to_be_bytes_mv (c : Cfg) (x : U256) : to_be_bytes c.other x = to_be_bytes c (mv x) := by
  rw [(to_bytes_eq _ _).2, (to_bytes_eq _ _).2, ← U256.toNat_mv c (mv x), Mv.inv]
@[mv_push] theorem to_le_bytes_mv (c : Cfg) (x : U256) : to_le_bytes c.other x = to_le_bytes c (mv x) := by
  rw [(to_bytes_eq _ _).1, (to_bytes_eq _ _).1, ← U256.toNat_mv c (mv x), Mv.inv]
theorem from_be_bytes_mv (c : Cfg) (l : List U8) (h : l.length = 32) :
    mv (from_be_bytes c l) = from_be_bytes c.other l := by
  apply U256.toNat_inj c.other
  rw [U256.toNat_mv, (C22_from_bytes c l h).2.1, (C22_from_bytes c.other l h).2.1]
theorem from_le_bytes_mv (c : Cfg) (l : List U8) (h : l.length = 32) :
    mv (from_le_bytes c l) = from_le_bytes c.other l := by
  apply U256.toNat_inj c.other
  rw [U256.toNat_mv, (C22_from_bytes c l h).1, (C22_from_bytes c.other l h).1]
end U256

namespace I256
@[mv_push] theorem to_be_bytes_mv (c : Cfg) (x : I256) : to_be_bytes c.other x = to_be_bytes c (mv x) := by
  rw [(to_bytes_eq _ _).2, (to_bytes_eq _ _).2, U256.to_be_bytes_mv]; rfl
@[mv_push] theorem to_le_bytes_mv (c : Cfg) (x : I256) : to_le_bytes c.other x = to_le_bytes c (mv x) := by
  rw [(to_bytes_eq _ _).1, (to_bytes_eq _ _).1, U256.to_le_bytes_mv]; rfl
theorem from_be_bytes_mv (c : Cfg) (l : List U8) (h : l.length = 32) :
    mv (from_be_bytes c l) = from_be_bytes c.other l := by
  rw [(from_bytes_eq _ _).2, (from_bytes_eq _ _).2, ← U256.from_be_bytes_mv c l h]; rfl
theorem from_le_bytes_mv (c : Cfg) (l : List U8) (h : l.length = 32) :
    mv (from_le_bytes c l) = from_le_bytes c.other l := by
  rw [(from_bytes_eq _ _).1, (from_bytes_eq _ _).1, ← U256.from_le_bytes_mv c l h]; rfl
end I256
end Ethnum
