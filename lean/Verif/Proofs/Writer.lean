import Verif.SpecWriter
import Verif.Proofs.Fmt
import Verif.Proofs.Serde

/-
Lemmas for C71: the calls that formatting makes.
-/

namespace Ethnum
namespace Io
variable {σ α : Type}

theorem seq_apply (w : Writer σ) (l : List Call) (m : Io σ α) (st : σ) :
    (Io.seq (runCalls w l) m) st = match runCalls w l st with
      | .error e => .error e
      | .ok (st, none) => .ok (st, none)
      | .ok (st, some _) => m st := by
  unfold Io.seq Io.andThen
  rcases runCalls w l st with e | ⟨st', _ | _⟩ <;> rfl

theorem runCalls_append (w : Writer σ) (l m : List Call) :
    (runCalls w (l ++ m) : Io σ Unit) = Io.seq (runCalls w l) (runCalls w m) := by
  funext st
  rw [seq_apply]
  induction l generalizing st with
  | nil => rfl
  | cons k l ih =>
    rw [List.cons_append, runCalls, runCalls]
    rcases k.run w st with e | ⟨st', _ | _⟩
    · rfl
    · rfl
    · exact ih st'

theorem str_eq (w : Writer σ) (s : List Char) : w.str s = runCalls w [.str s] := by
  funext st
  show (w.write_str s st >>= _) = _
  rw [runCalls, Call.run]
  rcases w.write_str s st with e | ⟨st', _ | _⟩ <;> rfl

theorem chr_eq (w : Writer σ) (ch : Char) : w.chr ch = runCalls w [.chr ch] := by
  funext st
  show (w.write_char ch st >>= _) = _
  rw [runCalls, Call.run]
  rcases w.write_char ch st with e | ⟨st', _ | _⟩ <;> rfl

theorem ok_eq (w : Writer σ) : (Io.ok () : Io σ Unit) = runCalls w [] := rfl

theorem chars_eq (w : Writer σ) (fill : Char) (n : Nat) :
    w.chars fill n = runCalls w (List.replicate n (.chr fill)) := by
  induction n with
  | zero => rfl
  | succ n ih => rw [Writer.chars, ih, chr_eq, ← runCalls_append]; rfl

theorem prefix_eq (w : Writer σ) (sign : Option Char) (pfx : Option (List Char)) :
    Formatter.write_prefix w sign pfx = runCalls w (sign.toList.map .chr ++ pfx.toList.map .str) := by
  rw [runCalls_append]
  cases sign <;> cases pfx <;> simp only [Formatter.write_prefix, chr_eq, str_eq, ok_eq w] <;> rfl

theorem padding_then (w : Writer σ) (fill : Char) (pre post : Nat) (k : Nat → Io σ Unit) :
    Io.andThen (Io.seq (w.chars fill pre) (.ok post)) k = Io.seq (w.chars fill pre) (k post) := by
  funext st
  unfold Io.seq Io.andThen
  dsimp only
  rcases w.chars fill pre st with e | ⟨st', _ | _⟩ <;> rfl

theorem seq_assoc (m m' : Io σ Unit) (m'' : Io σ α) : Io.seq (Io.seq m m') m'' = Io.seq m (Io.seq m' m'') := by
  funext st
  unfold Io.seq Io.andThen
  dsimp only
  rcases m st with e | ⟨st', _ | _⟩ <;> rfl

end Io

open Io

private theorem flatMap_chars (n : Nat) (ch : Char) :
    (List.replicate n (Call.chr ch)).flatMap Call.text = List.replicate n ch := by
  induction n with
  | zero => rfl
  | succ n ih => rw [List.replicate_succ, List.flatMap_cons, ih, List.replicate_succ]; rfl

/-- `pad_integral`, call by call, writes the text of `pad_integral`. -/
theorem pad_integral_writes (f : Formatter) (nn : Bool) (pfx buf : List Char) :
    ∃ calls : List Call, calls.flatMap Call.text = f.pad_integral nn pfx buf
      ∧ ∀ (σ : Type) (w : Writer σ), f.pad_integral_to w nn pfx buf = runCalls w calls := by
  let sign : Option Char := if !nn then some '-' else if f.sign_plus then some '+' else none
  let p : Option (List Char) := if f.alternate then some pfx else none
  have hs : (if !nn then ['-'] else if f.sign_plus then ['+'] else []) = sign.toList := by
    dsimp only [sign]; split <;> [rfl; (split <;> rfl)]
  have hp : (if f.alternate then pfx else []) = p.getD [] := by
    dsimp only [p]; split <;> rfl
  obtain ⟨H, hhead, hpre⟩ : ∃ H : List Call, H.flatMap Call.text = sign.toList ++ p.getD []
      ∧ ∀ (σ : Type) (w : Writer σ), Formatter.write_prefix w sign p = runCalls w H :=
    ⟨sign.toList.map Call.chr ++ p.toList.map Call.str, by cases sign <;> cases p <;> simp [Call.text],
      fun σ w => prefix_eq w sign p⟩
  have hlen : buf.length + sign.toList.length + (p.getD []).length = (sign.toList ++ p.getD []).length + buf.length := by
    rw [List.length_append]; omega
  unfold Formatter.pad_integral Formatter.pad_integral_to
  dsimp only
  rw [hs, hp]
  change ∃ calls : List Call, _ ∧ ∀ (σ : Type) (w : Writer σ), (match f.width with
    | none => (Formatter.write_prefix w sign p).seq (w.str buf)
    | some min => if min ≤ buf.length + sign.toList.length + (p.getD []).length
      then (Formatter.write_prefix w sign p).seq (w.str buf)
      else if f.sign_aware_zero_pad then
        (Formatter.write_prefix w sign p).seq <|
        (Formatter.padding w '0' (some .right) (min - (buf.length + sign.toList.length + (p.getD []).length)) .right).andThen
          fun post => (w.str buf).seq (w.chars '0' post)
      else
        (Formatter.padding w f.fill f.align (min - (buf.length + sign.toList.length + (p.getD []).length)) .right).andThen
          fun post => (Formatter.write_prefix w sign p).seq <| (w.str buf).seq (w.chars f.fill post)) = _
  rw [hlen]
  have plain : ∃ calls : List Call, calls.flatMap Call.text = sign.toList ++ p.getD [] ++ buf
      ∧ ∀ (σ : Type) (w : Writer σ), (Formatter.write_prefix w sign p).seq (w.str buf) = runCalls w calls :=
    ⟨H ++ [.str buf], by
      rw [List.flatMap_append, hhead]; simp [Call.text], fun σ w => by rw [hpre, str_eq, ← runCalls_append]⟩
  cases hw : f.width with
  | none => exact plain
  | some min =>
    dsimp only
    by_cases h : min ≤ (sign.toList ++ p.getD []).length + buf.length
    · simp only [if_pos h]; exact plain
    · simp only [if_neg h]
      by_cases hz : f.sign_aware_zero_pad = true
      · simp only [if_pos hz]
        refine ⟨H
          ++ (List.replicate (min - ((sign.toList ++ p.getD []).length + buf.length)) (.chr '0') ++ [.str buf]), ?_,
          fun σ w => ?_⟩
        · rw [List.flatMap_append, List.flatMap_append, hhead, flatMap_chars]; simp [Call.text]
        · rw [show ∀ n, Formatter.padding w '0' (some .right) n .right = (w.chars '0' n).seq (.ok 0) from fun _ => rfl,
            padding_then, show w.chars '0' 0 = runCalls w [] from rfl, hpre, str_eq, chars_eq]
          rw [← runCalls_append, List.append_nil, ← runCalls_append, ← runCalls_append]
      · simp only [if_neg hz]
        have gen : ∀ pre post, (∀ (σ : Type) (w : Writer σ) n, n = min - ((sign.toList ++ p.getD []).length + buf.length) →
              Formatter.padding w f.fill f.align n .right = (w.chars f.fill pre).seq (.ok post)) →
            ∃ calls : List Call, calls.flatMap Call.text
                = List.replicate pre f.fill ++ (sign.toList ++ p.getD [] ++ buf) ++ List.replicate post f.fill
              ∧ ∀ (σ : Type) (w : Writer σ),
                (Formatter.padding w f.fill f.align (min - ((sign.toList ++ p.getD []).length + buf.length)) .right).andThen
                  (fun post => (Formatter.write_prefix w sign p).seq ((w.str buf).seq (w.chars f.fill post)))
                = runCalls w calls := by
          intro pre post hpad
          refine ⟨List.replicate pre (.chr f.fill) ++ (H
            ++ ([.str buf] ++ List.replicate post (.chr f.fill))), ?_, fun σ w => ?_⟩
          · rw [List.flatMap_append, List.flatMap_append, List.flatMap_append, hhead, flatMap_chars, flatMap_chars]
            simp [Call.text]
          · rw [hpad σ w _ rfl, padding_then, hpre, str_eq, chars_eq, chars_eq]
            rw [← runCalls_append, ← runCalls_append, ← runCalls_append]
        rcases ha : f.align with _ | _ | _ | _ <;> rw [ha] at gen <;> dsimp only
        · have h := gen (min - ((sign.toList ++ p.getD []).length + buf.length)) 0 (fun σ w n hn => by subst hn; rfl)
          rwa [List.replicate_zero, List.append_nil] at h
        · have h := gen 0 (min - ((sign.toList ++ p.getD []).length + buf.length)) (fun σ w n hn => by subst hn; rfl)
          rwa [List.replicate_zero, List.nil_append] at h
        · have h := gen (min - ((sign.toList ++ p.getD []).length + buf.length)) 0 (fun σ w n hn => by subst hn; rfl)
          rwa [List.replicate_zero, List.append_nil] at h
        · exact gen _ _ (fun σ w n hn => by subst hn; rfl)

/-! ### The digits -/

private theorem writes_of_digits {text : Res (List Char)} {f : Formatter} {nn : Bool} {pfx s : List Char}
    (h : text = .ok (f.pad_integral nn pfx s)) {m : (σ : Type) → Writer σ → Io σ Unit}
    (hm : ∀ σ w st, m σ w st = f.pad_integral_to w nn pfx s st) : Writes text m := by
  obtain ⟨calls, h1, h2⟩ := pad_integral_writes f nn pfx s
  exact ⟨_, calls, h, h1, fun σ w st => by rw [hm, h2]⟩

theorem fmt_u256_writes (c : Cfg) (x : U256) (nn : Bool) (f : Formatter) :
    Writes (fmt_u256 c x nn f) (fun _ w => fmt_u256_to w c x nn f) := by
  refine writes_of_digits (fmt_u256_eq c x nn f) fun σ w st => ?_
  have h := fmt_u256_eq c x true .default
  unfold fmt_u256 at h
  unfold fmt_u256_to
  rcases hl : decLoop c 100 x 79 (Buf.uninit 79) with e | ⟨n, curr, buf⟩
  · rw [hl] at h; cases h
  · rw [hl] at h
    rw [ok_bind] at h ⊢
    dsimp only at h ⊢
    rcases ht : decTail c (n.as_isize c) curr buf with e | ⟨curr', buf'⟩
    · rw [ht] at h; cases h
    · rw [ht] at h
      rw [ok_bind] at h ⊢
      dsimp only at h ⊢
      split at h
      · cases h
      · rename_i hc
        rw [if_neg hc]
        rcases hi : Buf.init (buf'.drop curr'.toNat) with e | b
        · rw [hi] at h; cases h
        · rw [hi] at h
          rw [ok_bind] at h ⊢
          rcases hs : strUnchecked b with e | s
          · rw [hs] at h; cases h
          · rw [hs] at h
            rw [ok_bind] at h ⊢
            have : s = Nat.toDigits 10 (x.toNat c) := by injection h
            rw [this]

theorem radix_writes (c : Cfg) (r : Radix) (x : U256) (nn : Bool) (f : Formatter) :
    Writes (r.fmt_u256 c x nn f) (fun _ w => r.fmt_u256_to w c x nn f) := by
  refine writes_of_digits (r.fmt_u256_eq c x nn f) fun σ w st => ?_
  have h := r.fmt_u256_eq c x true .default
  unfold Radix.fmt_u256 at h
  unfold Radix.fmt_u256_to
  dsimp only at h ⊢
  rcases hl : Radix.loop c r (U256.from_prim c .u8 r.BASE) 256 x (Buf.uninit 256) with e | ⟨curr, buf⟩
  · rw [hl] at h; cases h
  · rw [hl] at h
    rw [ok_bind] at h ⊢
    dsimp only at h ⊢
    split at h
    · cases h
    · rename_i hc
      rw [if_neg hc]
      rcases hi : Buf.init (buf.drop curr) with e | b
      · rw [hi] at h; cases h
      · rw [hi] at h
        rw [ok_bind] at h ⊢
        rcases hs : strUnchecked b with e | s
        · rw [hs] at h; cases h
        · rw [hs] at h
          rw [ok_bind] at h ⊢
          have : s = r.numeral (x.toNat c) := by injection h
          rw [this, r.PREFIX_eq]

end Ethnum

namespace Ethnum

theorem Writes.keepsPrefix {text : Res (List Char)} {m : (σ : Type) → Writer σ → Io σ Unit} (h : Writes text m) {σ : Type}
    {w : Writer σ} {content : σ → List Char} (hw : Faithful w content) : KeepsPrefix content text (m σ w) := by
  obtain ⟨t, calls, ht, hc, hm⟩ := h
  refine ⟨t, ht, fun st => ?_⟩
  rw [hm, ← hc]
  clear ht hc hm
  induction calls generalizing st with
  | nil => exact ⟨st, some (), rfl, fun _ => (List.append_nil _).symm, fun h => by cases h⟩
  | cons k l ih =>
    obtain ⟨st', ok, hk, h1, h2⟩ := hw k st
    rw [runCalls, hk, List.flatMap_cons]
    cases ok with
    | false =>
      obtain ⟨p, hp, hc⟩ := h2 rfl
      exact ⟨st', none, rfl, fun h => by (cases h), fun _ => ⟨p, hp.trans (List.prefix_append ..), hc⟩⟩
    | true =>
      obtain ⟨st'', r, hr, h3, h4⟩ := ih st'
      refine ⟨st'', r, hr, fun h => by rw [h3 h, h1 rfl, List.append_assoc], fun h => ?_⟩
      obtain ⟨p, hp, hc⟩ := h4 h
      exact ⟨k.text ++ p, List.prefix_append_right_inj _ |>.mpr hp, by rw [hc, h1 rfl, List.append_assoc]⟩

theorem Writes.fillsCursor {text : Res (List Char)} {m : (σ : Type) → Writer σ → Io σ Unit} (h : Writes text m) :
    FillsCursor text m := by
  obtain ⟨t, calls, ht, hc, hm⟩ := h
  refine ⟨t, ht, fun n st hst => ?_⟩
  rw [hm, ← hc]
  clear ht hc hm
  induction calls generalizing st with
  | nil => simp [runCalls]
  | cons k l ih =>
    have hk : k.run (cursor n) st = .ok (st ++ k.text.take (n - st.length), decide (k.text.length ≤ n - st.length)) := by
      cases k <;> rfl
    rw [runCalls, hk, List.flatMap_cons, List.length_append]
    by_cases hl : k.text.length ≤ n - st.length
    · simp only [decide_eq_true hl]
      rw [List.take_of_length_le hl, ih _ (by rw [List.length_append]; omega), List.length_append,
        List.take_append, List.take_of_length_le hl, ← List.append_assoc, ← Nat.sub_sub]
      congr 2
      exact if_congr (by omega) rfl rfl
    · simp only [decide_eq_false hl]
      rw [if_neg (by omega), List.take_append, show n - st.length - k.text.length = 0 by omega, List.take_zero,
        List.append_nil]

theorem Writes.appends {text : Res (List Char)} {m : (σ : Type) → Writer σ → Io σ Unit} (h : Writes text m) :
    Appends text m := by
  obtain ⟨t, calls, ht, hc, hm⟩ := h
  refine ⟨t, ht, fun st => ?_⟩
  rw [hm, ← hc]
  clear ht hc hm
  induction calls generalizing st with
  | nil => simp [runCalls]
  | cons k l ih =>
    have hk : k.run growing st = .ok (st ++ k.text, true) := by cases k <;> rfl
    rw [runCalls, hk, List.flatMap_cons, ← List.append_assoc]
    exact ih _

namespace Serde

/-- Writing to a `FormatBuffer` is `write_all` of the pieces. -/
theorem runCalls_formatBuffer (c : Cfg) (calls : List Call) (f : FormatBuffer) :
    (do match ← runCalls (FormatBuffer.writer c) calls f with
      | (_, none) => return none
      | (f, some ()) => return some f)
    = f.write_all c (calls.map fun k => k.text.map fun ch => BitVec.ofNat 8 ch.toNat) := by
  induction calls generalizing f with
  | nil => rfl
  | cons k l ih =>
    have hk : k.run (FormatBuffer.writer c) f = (do
        match ← f.write_str c (k.text.map fun ch => BitVec.ofNat 8 ch.toNat) with
        | none => return (f, false)
        | some f => return (f, true)) := by cases k <;> rfl
    rw [runCalls, hk, List.map_cons, FormatBuffer.write_all]
    generalize hz : f.write_str c (k.text.map fun ch => BitVec.ofNat 8 ch.toNat) = z
    rcases z with e | _ | f'
    · rfl
    · rfl
    · exact ih f'

/-- What is serialized does not depend on how the text is cut. -/
theorem serialize_into_eq (c : Cfg) (N : Nat) {text : Res (List Char)} {m : (σ : Type) → Writer σ → Io σ Unit}
    (h : Writes text m) : ∃ k : Chunking, serialize_into N (m _ (FormatBuffer.writer c))
      = (do serialize_text c k N (← text)) := by
  obtain ⟨t, calls, ht, hc, hm⟩ := h
  let T : List U8 := t.map fun ch => BitVec.ofNat 8 ch.toNat
  let S : List (List U8) := calls.map fun k => k.text.map fun ch => BitVec.ofNat 8 ch.toNat
  have hS : S.flatten = T := by
    show (calls.map fun k => k.text.map fun ch => BitVec.ofNat 8 ch.toNat).flatten = t.map _
    rw [← hc, List.map_flatMap]; rfl
  refine ⟨⟨fun s => if s = T then S else [s], fun s => ?_⟩, ?_⟩
  · split
    · rename_i h; rw [h, hS]
    · simp
  · rw [ht, ok_bind]
    unfold serialize_into serialize_text
    dsimp only
    rw [if_pos (show t.map _ = T from rfl), hm]
    have := runCalls_formatBuffer c calls (FormatBuffer.new N)
    change _ = FormatBuffer.write_all c _ S at this
    rw [← this]
    rcases runCalls (FormatBuffer.writer c) calls (FormatBuffer.new N) with e | ⟨f, _ | _⟩ <;> rfl

end Serde
end Ethnum
