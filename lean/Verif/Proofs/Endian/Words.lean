import Verif.Proofs.Endian.Basic

namespace Ethnum
namespace U256
@[mv_push] theorem from_words_mv (c : Cfg) (hi lo : U128) : mv (from_words c hi lo) = from_words c.other hi lo := by
  rcases c with ⟨_ | _, _, _, _⟩ <;> rfl
@[mv_push] theorem into_words_mv (c : Cfg) (x : U256) : into_words c.other x = into_words c (mv x) := by
  rcases c with ⟨_ | _, _, _, _⟩ <;> rfl
@[mv_push] theorem low_mv (c : Cfg) (x : U256) : low c.other x = low c (mv x) := by
  rcases c with ⟨_ | _, _, _, _⟩ <;> rfl
@[mv_push] theorem high_mv (c : Cfg) (x : U256) : high c.other x = high c (mv x) := by
  rcases c with ⟨_ | _, _, _, _⟩ <;> rfl
@[mv_push] theorem set_low_mv (c : Cfg) (x : U256) (v : U128) : mv (set_low c x v) = set_low c.other (mv x) v := by
  rcases c with ⟨_ | _, _, _, _⟩ <;> rfl
@[mv_push] theorem set_high_mv (c : Cfg) (x : U256) (v : U128) : mv (set_high c x v) = set_high c.other (mv x) v := by
  rcases c with ⟨_ | _, _, _, _⟩ <;> rfl
@[mv_push] theorem new_mv (c : Cfg) (value : U128) : mv (new c value) = new c.other value := by
  unfold new; mv_auto
@[mv_push] theorem ZERO_mv : mv ZERO = ZERO := by
  unfold ZERO; mv_auto
@[mv_push] theorem ONE_mv (c : Cfg) : mv (ONE c) = ONE c.other := by
  unfold ONE; mv_auto
@[mv_push] theorem MIN_mv : mv MIN = MIN := by
  unfold MIN; mv_auto
@[mv_push] theorem MAX_mv : mv MAX = MAX := by
  unfold MAX; mv_auto
@[mv_push] theorem cmp_mv (c : Cfg) (a b : U256) : cmp c.other a b = cmp c (mv a) (mv b) := by
  unfold cmp; mv_base_auto
@[mv_push] theorem eq_mv (c : Cfg) (a b : U256) : eq c.other a b = eq c (mv a) (mv b) := by
  unfold eq; mv_base_auto
@[mv_push] theorem ne_mv (c : Cfg) (a b : U256) : ne c.other a b = ne c (mv a) (mv b) := by
  unfold ne; mv_base_auto
@[mv_push] theorem partial_cmp_mv (c : Cfg) (a b : U256) : partial_cmp c.other a b = partial_cmp c (mv a) (mv b) := by
  unfold partial_cmp; mv_base_auto
@[mv_push] theorem lt_mv (c : Cfg) (a b : U256) : lt c.other a b = lt c (mv a) (mv b) := by
  unfold lt; mv_base_auto
@[mv_push] theorem le_mv (c : Cfg) (a b : U256) : le c.other a b = le c (mv a) (mv b) := by
  unfold le; mv_base_auto
@[mv_push] theorem gt_mv (c : Cfg) (a b : U256) : gt c.other a b = gt c (mv a) (mv b) := by
  unfold gt; mv_base_auto
@[mv_push] theorem ge_mv (c : Cfg) (a b : U256) : ge c.other a b = ge c (mv a) (mv b) := by
  unfold ge; mv_base_auto
@[mv_push] theorem eq_prim_mv (c : Cfg) (a : U256) (p : U128) : eq_prim c.other a p = eq_prim c (mv a) p := by
  unfold eq_prim; mv_base_auto
@[mv_push] theorem prim_eq_mv (c : Cfg) (p : U128) (a : U256) : prim_eq c.other p a = prim_eq c p (mv a) := by
  unfold prim_eq; mv_base_auto
@[mv_push] theorem partial_cmp_prim_mv (c : Cfg) (a : U256) (p : U128) : partial_cmp_prim c.other a p = partial_cmp_prim c (mv a) p := by
  unfold partial_cmp_prim; mv_base_auto
@[mv_push] theorem prim_partial_cmp_mv (c : Cfg) (p : U128) (a : U256) : prim_partial_cmp c.other p a = prim_partial_cmp c p (mv a) := by
  unfold prim_partial_cmp; mv_base_auto
@[mv_push] theorem lt_prim_mv (c : Cfg) (a : U256) (p : U128) : lt_prim c.other a p = lt_prim c (mv a) p := by
  unfold lt_prim; mv_base_auto
@[mv_push] theorem le_prim_mv (c : Cfg) (a : U256) (p : U128) : le_prim c.other a p = le_prim c (mv a) p := by
  unfold le_prim; mv_base_auto
@[mv_push] theorem gt_prim_mv (c : Cfg) (a : U256) (p : U128) : gt_prim c.other a p = gt_prim c (mv a) p := by
  unfold gt_prim; mv_base_auto
@[mv_push] theorem ge_prim_mv (c : Cfg) (a : U256) (p : U128) : ge_prim c.other a p = ge_prim c (mv a) p := by
  unfold ge_prim; mv_base_auto
end U256
namespace I256
@[mv_push] theorem from_words_mv (c : Cfg) (hi lo : U128) : mv (from_words c hi lo) = from_words c.other hi lo := by
  rcases c with ⟨_ | _, _, _, _⟩ <;> rfl
@[mv_push] theorem into_words_mv (c : Cfg) (x : I256) : into_words c.other x = into_words c (mv x) := by
  rcases c with ⟨_ | _, _, _, _⟩ <;> rfl
@[mv_push] theorem low_mv (c : Cfg) (x : I256) : low c.other x = low c (mv x) := by
  rcases c with ⟨_ | _, _, _, _⟩ <;> rfl
@[mv_push] theorem high_mv (c : Cfg) (x : I256) : high c.other x = high c (mv x) := by
  rcases c with ⟨_ | _, _, _, _⟩ <;> rfl
@[mv_push] theorem set_low_mv (c : Cfg) (x : I256) (v : U128) : mv (set_low c x v) = set_low c.other (mv x) v := by
  rcases c with ⟨_ | _, _, _, _⟩ <;> rfl
@[mv_push] theorem set_high_mv (c : Cfg) (x : I256) (v : U128) : mv (set_high c x v) = set_high c.other (mv x) v := by
  rcases c with ⟨_ | _, _, _, _⟩ <;> rfl
@[mv_push] theorem new_mv (c : Cfg) (value : U128) : mv (new c value) = new c.other value := by
  unfold new; mv_auto
@[mv_push] theorem ZERO_mv : mv ZERO = ZERO := by
  unfold ZERO; mv_auto
@[mv_push] theorem ONE_mv (c : Cfg) : mv (ONE c) = ONE c.other := by
  unfold ONE; mv_auto
@[mv_push] theorem MINUS_ONE_mv (c : Cfg) : mv (MINUS_ONE c) = MINUS_ONE c.other := by
  unfold MINUS_ONE; mv_auto
@[mv_push] theorem MIN_mv (c : Cfg) : mv (MIN c) = MIN c.other := by
  unfold MIN; mv_auto
@[mv_push] theorem MAX_mv (c : Cfg) : mv (MAX c) = MAX c.other := by
  unfold MAX; mv_auto
@[mv_push] theorem as_u256_mv (x : I256) : mv (as_u256 x) = as_u256 (mv x) := by
  unfold as_u256; mv_auto
@[mv_push] theorem cmp_mv (c : Cfg) (a b : I256) : cmp c.other a b = cmp c (mv a) (mv b) := by
  unfold cmp; mv_base_auto
@[mv_push] theorem eq_mv (c : Cfg) (a b : I256) : eq c.other a b = eq c (mv a) (mv b) := by
  unfold eq; mv_base_auto
@[mv_push] theorem ne_mv (c : Cfg) (a b : I256) : ne c.other a b = ne c (mv a) (mv b) := by
  unfold ne; mv_base_auto
@[mv_push] theorem partial_cmp_mv (c : Cfg) (a b : I256) : partial_cmp c.other a b = partial_cmp c (mv a) (mv b) := by
  unfold partial_cmp; mv_base_auto
@[mv_push] theorem lt_mv (c : Cfg) (a b : I256) : lt c.other a b = lt c (mv a) (mv b) := by
  unfold lt; mv_base_auto
@[mv_push] theorem le_mv (c : Cfg) (a b : I256) : le c.other a b = le c (mv a) (mv b) := by
  unfold le; mv_base_auto
@[mv_push] theorem gt_mv (c : Cfg) (a b : I256) : gt c.other a b = gt c (mv a) (mv b) := by
  unfold gt; mv_base_auto
@[mv_push] theorem ge_mv (c : Cfg) (a b : I256) : ge c.other a b = ge c (mv a) (mv b) := by
  unfold ge; mv_base_auto
@[mv_push] theorem eq_prim_mv (c : Cfg) (a : I256) (p : U128) : eq_prim c.other a p = eq_prim c (mv a) p := by
  unfold eq_prim; mv_base_auto
@[mv_push] theorem prim_eq_mv (c : Cfg) (p : U128) (a : I256) : prim_eq c.other p a = prim_eq c p (mv a) := by
  unfold prim_eq; mv_base_auto
@[mv_push] theorem partial_cmp_prim_mv (c : Cfg) (a : I256) (p : U128) : partial_cmp_prim c.other a p = partial_cmp_prim c (mv a) p := by
  unfold partial_cmp_prim; mv_base_auto
@[mv_push] theorem prim_partial_cmp_mv (c : Cfg) (p : U128) (a : I256) : prim_partial_cmp c.other p a = prim_partial_cmp c p (mv a) := by
  unfold prim_partial_cmp; mv_base_auto
@[mv_push] theorem lt_prim_mv (c : Cfg) (a : I256) (p : U128) : lt_prim c.other a p = lt_prim c (mv a) p := by
  unfold lt_prim; mv_base_auto
@[mv_push] theorem le_prim_mv (c : Cfg) (a : I256) (p : U128) : le_prim c.other a p = le_prim c (mv a) p := by
  unfold le_prim; mv_base_auto
@[mv_push] theorem gt_prim_mv (c : Cfg) (a : I256) (p : U128) : gt_prim c.other a p = gt_prim c (mv a) p := by
  unfold gt_prim; mv_base_auto
@[mv_push] theorem ge_prim_mv (c : Cfg) (a : I256) (p : U128) : ge_prim c.other a p = ge_prim c (mv a) p := by
  unfold ge_prim; mv_base_auto
end I256
@[mv_push] theorem U256.as_i256_mv (x : U256) : mv (U256.as_i256 x) = U256.as_i256 (mv x) := by
  unfold U256.as_i256; mv_auto
end Ethnum
