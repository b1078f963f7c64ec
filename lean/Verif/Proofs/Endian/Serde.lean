import Verif.Proofs.Endian.Bytes
import Verif.Proofs.SerdeCompressed

namespace Ethnum
namespace Serde

/-! ### Text -/

theorem write_all_mv (c : Cfg) (l : List (List U8)) : ∀ f : FormatBuffer, f.write_all c.other l = f.write_all c l := by
  induction l with
  | nil => intro f; rfl
  | cons s l ih =>
    intro f
    show (f.write_str c s >>= _) = f.write_str c s >>= _
    congr 1
    funext o
    cases o with
    | none => rfl
    | some f => exact ih f

@[mv_push] theorem serialize_text_mv (c : Cfg) (k : Chunking) (N : Nat) (t : List Char) :
    serialize_text c.other k N t = serialize_text c k N t := by
  unfold serialize_text; rw [write_all_mv]

/-! ### Visitors -/

/-- The two visitors do the same, each in its representation. -/
structure Visitor.Moves {T : Type} [Mv T] (v v' : Visitor T) : Prop where
  visit_i64 : ∀ x, mv (orInvalidType v.visit_i64 x) = orInvalidType v'.visit_i64 x
  visit_u64 : ∀ x, mv (orInvalidType v.visit_u64 x) = orInvalidType v'.visit_u64 x
  visit_i128 : ∀ x, mv (orInvalidType v.visit_i128 x) = orInvalidType v'.visit_i128 x
  visit_u128 : ∀ x, mv (orInvalidType v.visit_u128 x) = orInvalidType v'.visit_u128 x
  visit_f32 : ∀ x, mv (v.call (.f32 x)) = v'.call (.f32 x)
  visit_f64 : ∀ x, mv (orInvalidType v.visit_f64 x) = orInvalidType v'.visit_f64 x
  visit_str : ∀ x, mv (orInvalidType v.visit_str x) = orInvalidType v'.visit_str x
  visit_bytes : ∀ x, mv (orInvalidType v.visit_bytes x) = orInvalidType v'.visit_bytes x
  visit_seq : ∀ x y, mv (v.call (.seq x y)) = v'.call (.seq x y)

theorem Visitor.call_mv {T : Type} [Mv T] {v v' : Visitor T} (h : v.Moves v') (i : Input) : mv (v.call i) = v'.call i := by
  cases i with
  | i8 x => exact h.visit_i64 _
  | i16 x => exact h.visit_i64 _
  | i32 x => exact h.visit_i64 _
  | i64 x => exact h.visit_i64 _
  | i128 x => exact h.visit_i128 _
  | u8 x => exact h.visit_u64 _
  | u16 x => exact h.visit_u64 _
  | u32 x => exact h.visit_u64 _
  | u64 x => exact h.visit_u64 _
  | u128 x => exact h.visit_u128 _
  | f32 x => exact h.visit_f32 _
  | f64 x => exact h.visit_f64 _
  | str x => exact h.visit_str _
  | bytes x => exact h.visit_bytes _
  | seq x y => exact h.visit_seq _ _
  | other => rfl

theorem format_visit_str_mv {T : Type} [Mv T] {p p' : List U8 → Res (ParseResult T)} (h : ∀ s, mv (p s) = p' s) (s : List U8) :
    mv (format_visit_str p s) = format_visit_str p' s :=
  mv_bindE (h s) (fun _ => rfl) (fun _ => rfl)

theorem FormatVisitor_moves {T : Type} [Mv T] {p p' : List U8 → Res (ParseResult T)} (h : ∀ s, mv (p s) = p' s) :
    (FormatVisitor p).Moves (FormatVisitor p') where
  visit_i64 := fun _ => rfl
  visit_u64 := fun _ => rfl
  visit_i128 := fun _ => rfl
  visit_u128 := fun _ => rfl
  visit_f32 := fun _ => rfl
  visit_f64 := fun _ => rfl
  visit_str := format_visit_str_mv h
  visit_bytes := fun v => mv_ite' (x := format_visit_str p v) (x' := format_visit_str p' v) rfl (format_visit_str_mv h v) rfl
  visit_seq := fun _ _ => rfl

theorem permissive_f64_mv (c : Cfg) {T : Type} [Mv T] {cast : I256 → T} (hc : ∀ x, mv (cast x) = cast (mv x)) (v : FloatTy.f64.Val) :
    mv (permissive_f64 c cast v) = permissive_f64 c.other cast v := by
  unfold permissive_f64
  refine mv_ite' rfl rfl (mv_ite' rfl rfl ?_)
  show done (mv (cast _)) = _
  rw [hc]
  exact congrArg (fun x => done (cast x)) (I256.of_prim_as_mv c .i64 _)

theorem PermissiveVisitor_moves (c : Cfg) {T : Type} [Mv T] {cast : I256 → T} (hc : ∀ x, mv (cast x) = cast (mv x))
    {p p' : List U8 → Res (ParseResult T)} (h : ∀ s, mv (p s) = p' s) :
    (PermissiveVisitor c cast p).Moves (PermissiveVisitor c.other cast p') where
  visit_i64 := fun v => by
    show done (mv (cast _)) = _
    rw [hc]; exact congrArg (fun x => done (cast x)) (I256.of_prim_as_mv c .i64 v)
  visit_u64 := fun v => by
    show done (mv (cast _)) = _
    rw [hc]; exact congrArg (fun x => done (cast x)) (I256.of_prim_as_mv c .u64 v)
  visit_i128 := fun v => by
    show done (mv (cast _)) = _
    rw [hc]; exact congrArg (fun x => done (cast x)) (I256.of_prim_as_mv c .i128 v)
  visit_u128 := fun v => by
    show done (mv (cast _)) = _
    rw [hc]; exact congrArg (fun x => done (cast x)) (I256.of_prim_as_mv c .u128 v)
  visit_f32 := fun v =>
    mv_ite' (x' := fail .floatRange) (y' := permissive_f64 c.other cast (FloatTy.f32.convert .f64 v)) rfl rfl (permissive_f64_mv c hc _)
  visit_f64 := permissive_f64_mv c hc
  visit_str := format_visit_str_mv h
  visit_bytes := fun _ => rfl
  visit_seq := fun _ _ => rfl

/-! ### Bytes -/

theorem init_length : ∀ (b : Buf) (l : List U8), Buf.init b = .ok l → l.length = b.length := by
  intro b
  induction b with
  | nil => intro l h; cases h; rfl
  | cons a b ih =>
    intro l h
    cases a with
    | none => cases h
    | some a =>
      change (Buf.init b >>= fun r => pure (a :: r)) = _ at h
      cases hb : Buf.init b with
      | error e => rw [hb] at h; cases h
      | ok r =>
        rw [hb] at h
        cases h
        rw [List.length_cons, List.length_cons, ih r hb]

theorem readExactly_length : ∀ (n i : Nat) (buf : Buf) (l : List (Option U8)) (p : Buf × List (Option U8)),
    readExactly n i buf l = .ok (.ok p) → p.1.length = buf.length := by
  intro n
  induction n with
  | zero => intro i buf l p h; cases h; rfl
  | succ n ih =>
    intro i buf l p h
    match l, h with
    | some b :: l, h =>
      change (storeAt buf i b >>= fun buf => readExactly n (i + 1) buf l) = _ at h
      unfold storeAt at h
      split at h
      · have := ih _ _ _ _ h
        rwa [List.length_set] at this
      · cases h

theorem bytes_visit_seq_mv {T : Type} [Mv T] {m m' : Bytes T} (h : ∀ l : List U8, l.length = 32 → mv (m.from_bytes l) = m'.from_bytes l)
    (hint : Option Nat) (seq : List (Option U8)) : mv (bytes_visit_seq m hint seq) = bytes_visit_seq m' hint seq := by
  unfold bytes_visit_seq
  cases hintNot32 hint with
  | some n => rfl
  | none =>
    dsimp only
    cases hr : readExactly 32 0 (Buf.uninit 32) seq with
    | error e => rfl
    | ok o =>
      cases o with
      | error e => rfl
      | ok p =>
        have hl := readExactly_length _ _ _ _ _ hr
        obtain ⟨buf, rest⟩ := p
        rw [ok_bind, ok_bind]
        dsimp only
        cases hasNext rest with
        | error e => rfl
        | ok b =>
          cases b with
          | true => rfl
          | false =>
            dsimp only
            cases hi : Buf.init buf with
            | error e => rfl
            | ok l =>
              rw [ok_bind, ok_bind]
              have := init_length _ _ hi
              exact congrArg done (h l (by rw [this, hl, Buf.length_uninit]))

theorem BytesVisitor_moves {T : Type} [Mv T] {m m' : Bytes T} (h : ∀ l : List U8, l.length = 32 → mv (m.from_bytes l) = m'.from_bytes l) :
    (BytesVisitor m).Moves (BytesVisitor m') where
  visit_i64 := fun _ => rfl
  visit_u64 := fun _ => rfl
  visit_i128 := fun _ => rfl
  visit_u128 := fun _ => rfl
  visit_f32 := fun _ => rfl
  visit_f64 := fun _ => rfl
  visit_str := fun _ => rfl
  visit_bytes := fun v => by
    show mv (if v.length = 32 then done (m.from_bytes v) else fail (.invalidLength v.length)) =
      (if v.length = 32 then done (m'.from_bytes v) else fail (.invalidLength v.length))
    split
    · next hv => exact congrArg done (h v hv)
    · rfl
  visit_seq := bytes_visit_seq_mv h

theorem compressed_visit_bytes_mv (c : Cfg) {T : Type} [Mv T] (o : Order) {m m' : Bytes T} {k k' : CompressedBytes T}
    (h : ∀ l : List U8, l.length = 32 → mv (m.from_bytes l) = m'.from_bytes l) (hk : k.extend = k'.extend) (v : List U8) :
    mv (compressed_visit_bytes c o m k v) = compressed_visit_bytes c.other o m' k' v := by
  by_cases hv : 32 < v.length
  · rw [visit_bytes_long _ _ _ _ _ hv, visit_bytes_long _ _ _ _ _ hv]; rfl
  · rw [visit_bytes_eq _ _ _ _ _ (by omega), visit_bytes_eq _ _ _ _ _ (by omega), hk]
    exact congrArg done (h _ (length_padded o v _ (by omega)))

theorem CompressedBytesVisitor_moves (c : Cfg) {T : Type} [Mv T] (o : Order) {m m' : Bytes T} {k k' : CompressedBytes T}
    (h : ∀ l : List U8, l.length = 32 → mv (m.from_bytes l) = m'.from_bytes l) (hk : k.extend = k'.extend) :
    (CompressedBytesVisitor c o m k).Moves (CompressedBytesVisitor c.other o m' k') where
  visit_i64 := fun _ => rfl
  visit_u64 := fun _ => rfl
  visit_i128 := fun _ => rfl
  visit_u128 := fun _ => rfl
  visit_f32 := fun _ => rfl
  visit_f64 := fun _ => rfl
  visit_str := fun _ => rfl
  visit_bytes := compressed_visit_bytes_mv c o h hk
  visit_seq := fun hint seq => by
    show mv (compressed_visit_seq c o m k hint seq) = compressed_visit_seq c.other o m' k' hint seq
    unfold compressed_visit_seq
    cases hintOver32 hint with
    | some n => rfl
    | none =>
      dsimp only
      cases readUpTo 0 (Buf.uninit 32) seq with
      | error e => rfl
      | ok p =>
        cases p with
        | error e => rfl
        | ok p =>
          obtain ⟨buf, i, rest⟩ := p
          rw [ok_bind, ok_bind]
          dsimp only
          cases (if i = 32 then hasNext rest else .ok false) with
          | error e => rfl
          | ok b =>
            cases b with
            | true => rfl
            | false =>
              dsimp only
              cases sliceTo buf i with
              | error e => rfl
              | ok part =>
                rw [ok_bind, ok_bind]
                cases Buf.init part with
                | error e => rfl
                | ok bytes => exact compressed_visit_bytes_mv c o h hk bytes

theorem keep_mv (c : Cfg) (o : Order) (b : List U8) (l : Nat) : keep c.other o b l = keep c o b l := by
  cases o <;> rfl

end Serde

open Serde

namespace U256
variable (c : Cfg)

@[mv_push] theorem serialize_mv (k : Chunking) (x : U256) : serialize c.other k x = serialize c k (mv x) := by
  unfold serialize; rw [fmtRadix_mv]; simp only [mv_push]
@[mv_push] theorem serialize_decimal_mv (k : Chunking) (x : U256) : serialize_decimal c.other k x = serialize_decimal c k (mv x) := by
  unfold serialize_decimal; rw [display_mv]; simp only [mv_push]
theorem deserialize_mv (i : Input) : mv (deserialize c i) = deserialize c.other i :=
  Visitor.call_mv (FormatVisitor_moves (from_str_hex_mv c)) i
theorem deserialize_decimal_mv (i : Input) : mv (deserialize_decimal c i) = deserialize_decimal c.other i :=
  Visitor.call_mv (FormatVisitor_moves (fun s => from_str_radix_mv c s 10)) i
theorem deserialize_prefixed_mv (i : Input) : mv (deserialize_prefixed c i) = deserialize_prefixed c.other i :=
  Visitor.call_mv (FormatVisitor_moves (from_str_prefixed_mv c)) i
theorem deserialize_permissive_mv (i : Input) : mv (deserialize_permissive c i) = deserialize_permissive c.other i :=
  Visitor.call_mv (PermissiveVisitor_moves c (cast := I256.as_u256) (fun _ => rfl) (from_str_prefixed_mv c)) i
theorem bytesOf_from_mv (o : Order) (l : List U8) (h : l.length = 32) : mv ((bytesOf c o).from_bytes l) = (bytesOf c.other o).from_bytes l := by
  cases o
  · exact from_le_bytes_mv c l h
  · exact from_be_bytes_mv c l h
theorem bytesOf_to_mv (o : Order) (x : U256) : (bytesOf c.other o).to_bytes x = (bytesOf c o).to_bytes (mv x) := by
  cases o
  · exact to_le_bytes_mv c x
  · exact to_be_bytes_mv c x
@[mv_push] theorem serialize_bytes_mv (o : Order) (x : U256) : serialize_bytes c.other o x = serialize_bytes c o (mv x) := by
  unfold serialize_bytes; rw [bytesOf_to_mv]
theorem deserialize_bytes_mv (o : Order) (i : Input) : mv (deserialize_bytes c o i) = deserialize_bytes c.other o i :=
  Visitor.call_mv (BytesVisitor_moves (bytesOf_from_mv c o)) i
@[mv_push] theorem serialize_compressed_mv (o : Order) (x : U256) : serialize_compressed c.other o x = serialize_compressed c o (mv x) := by
  unfold serialize_compressed Serde.serialize_compressed
  simp only [bytesOf_to_mv, keep_mv]
  show (leading_zeros c.other x >>= _) = leading_zeros c (mv x) >>= _
  rw [leading_zeros_mv]
theorem deserialize_compressed_mv (o : Order) (i : Input) : mv (deserialize_compressed c o i) = deserialize_compressed c.other o i := by
  have h : (compressedOf c).extend = (compressedOf c.other).extend := by unfold compressedOf; rfl
  unfold deserialize_compressed
  exact Visitor.call_mv (CompressedBytesVisitor_moves c o (bytesOf_from_mv c o) h) i
end U256

namespace I256
variable (c : Cfg)

@[mv_push] theorem serialize_mv (k : Chunking) (x : I256) : serialize c.other k x = serialize c k (mv x) := by
  unfold serialize; rw [fmtRadix_mv]; simp only [mv_push]
@[mv_push] theorem serialize_decimal_mv (k : Chunking) (x : I256) : serialize_decimal c.other k x = serialize_decimal c k (mv x) := by
  unfold serialize_decimal; rw [display_mv]; simp only [mv_push]
theorem deserialize_mv (i : Input) : mv (deserialize c i) = deserialize c.other i :=
  Visitor.call_mv (FormatVisitor_moves (from_str_hex_mv c)) i
theorem deserialize_decimal_mv (i : Input) : mv (deserialize_decimal c i) = deserialize_decimal c.other i :=
  Visitor.call_mv (FormatVisitor_moves (fun s => from_str_radix_mv c s 10)) i
theorem deserialize_prefixed_mv (i : Input) : mv (deserialize_prefixed c i) = deserialize_prefixed c.other i :=
  Visitor.call_mv (FormatVisitor_moves (from_str_prefixed_mv c)) i
theorem deserialize_permissive_mv (i : Input) : mv (deserialize_permissive c i) = deserialize_permissive c.other i :=
  Visitor.call_mv (PermissiveVisitor_moves c (cast := id) (fun _ => rfl) (from_str_prefixed_mv c)) i
theorem bytesOf_from_mv (o : Order) (l : List U8) (h : l.length = 32) : mv ((bytesOf c o).from_bytes l) = (bytesOf c.other o).from_bytes l := by
  cases o
  · exact from_le_bytes_mv c l h
  · exact from_be_bytes_mv c l h
theorem bytesOf_to_mv (o : Order) (x : I256) : (bytesOf c.other o).to_bytes x = (bytesOf c o).to_bytes (mv x) := by
  cases o
  · exact to_le_bytes_mv c x
  · exact to_be_bytes_mv c x
theorem leading_bits_mv (x : I256) : leading_bits c.other x = leading_bits c (mv x) := by
  unfold leading_bits; mv_base_auto
@[mv_push] theorem serialize_bytes_mv (o : Order) (x : I256) : serialize_bytes c.other o x = serialize_bytes c o (mv x) := by
  unfold serialize_bytes; rw [bytesOf_to_mv]
theorem deserialize_bytes_mv (o : Order) (i : Input) : mv (deserialize_bytes c o i) = deserialize_bytes c.other o i :=
  Visitor.call_mv (BytesVisitor_moves (bytesOf_from_mv c o)) i
@[mv_push] theorem serialize_compressed_mv (o : Order) (x : I256) : serialize_compressed c.other o x = serialize_compressed c o (mv x) := by
  unfold serialize_compressed Serde.serialize_compressed
  simp only [bytesOf_to_mv, keep_mv]
  show (leading_bits c.other x >>= _) = leading_bits c (mv x) >>= _
  rw [leading_bits_mv]
theorem compressedOf_extend_mv : (compressedOf c).extend = (compressedOf c.other).extend := by
  unfold compressedOf; with_reducible rfl
theorem deserialize_compressed_mv (o : Order) (i : Input) : mv (deserialize_compressed c o i) = deserialize_compressed c.other o i :=
  Visitor.call_mv (CompressedBytesVisitor_moves c o (bytesOf_from_mv c o) (compressedOf_extend_mv c)) i
end I256

end Ethnum
