import Verif.SpecDoc
import Verif.Props.Serde
import Verif.Props.SerdeBytes
import Verif.Props.SerdeCompressed
import Verif.Props.SerdePermissive

/-
C57: records of 256-bit integers, of any number of fields and with any mixture of schemes, survive every data format
that gives back what was written in it.
-/

namespace Ethnum
open Serde

private theorem text_of {T : Type} {de : Input → Res (Outcome T)} {parse : List U8 → Res (ParseResult T)} {t : List U8} {x : T}
    (h : TextFormat de parse) (hx : ∀ i, i = .str t ∨ i = .bytes t → de i = .ok (.ok x)) : parse t = .ok (.ok x) :=
  (h.1 t x).1 (hx _ (.inl rfl))

private theorem text_ans {T : Type} {de : Input → Res (Outcome T)} {t : List U8} {x : T} {a : Option Input}
    (ha : GivesText t a) (hx : ∀ i, i = .str t ∨ i = .bytes t → de i = .ok (.ok x)) :
    ∃ i, a = some i ∧ de i = .ok (.ok x) := by
  rcases ha with h | h
  · exact ⟨_, h, hx _ (.inl rfl)⟩
  · exact ⟨_, h, hx _ (.inr rfl)⟩

/-- What a `U256` field goes through. -/
private theorem u_field (c : Cfg) (k : Chunking) (s : Scheme) (x : U256) :
    ∃ d, x.serializeWith c k s = .ok d ∧ d.size ≤ 78
      ∧ ∀ sd a, Answers sd d s.request a → (sd = true ∨ s ≠ .permissive) →
          ∃ i, a = some i ∧ U256.deserializeWith c s i = .ok (.ok x) := by
  have hx := U256.toNat_lt c x
  obtain ⟨hs, -, hd, -⟩ := C37_serialize c k x I256.ZERO
  obtain ⟨⟨t, ht, ho⟩, -, ⟨t', ht', hdd⟩, -⟩ := C37_round_trip c k x I256.ZERO
  have e1 : t = str "0x" ++ (Nat.toDigits 16 (x.toNat c)).map asc := by
    rw [hs] at ht
    injection ht with ht
    injection ht with ht
    exact ht.symm
  have l1 : t.length ≤ 78 := by
    rw [e1, List.length_append, List.length_map]
    have := hex_length (n := x.toNat c) (k := 64) (by norm_num; omega) (by omega)
    have h2 : (str "0x").length = 2 := rfl
    omega
  have e2 : t' = str (toString (x.toNat c)) := by
    rw [hd] at ht'
    injection ht' with ht'
    injection ht' with ht'
    exact ht'.symm
  have l2 : t'.length ≤ 78 := by
    rw [e2, str, List.length_map, Nat.toString_eq_repr, Nat.toList_repr]
    exact dec_length (n := x.toNat c) (k := 78) (lt_of_lt_of_le hx (by norm_num)) (by omega)
  have hown := fun i hi => (ho i hi).1
  have hpre := fun i hi => (ho i hi).2
  cases s with
  | own => exact ⟨_, ht, l1, fun sd a ha _ => text_ans ha hown⟩
  | decimal => exact ⟨_, ht', l2, fun sd a ha _ => text_ans ha hdd⟩
  | prefixed => exact ⟨_, ht, l1, fun sd a ha _ => text_ans ha hpre⟩
  | permissive =>
    refine ⟨_, ht, l1, fun sd a ha hp => ?_⟩
    have hsd : sd = true := by simpa using hp
    subst hsd
    refine ⟨.str t, ha, ?_⟩
    exact (C38_u256_exact c (.str t) x).2 (.inl ⟨t, rfl, text_of (C37_accepts c).2.2.2.2.1 hpre⟩)
  | bytes o =>
    refine ⟨_, (C39_serialize c o x I256.ZERO).1, ?_, ?_⟩
    · show (o.arrange _).length ≤ 78
      cases o
      · simp [Order.arrange]
      · simp [Order.arrange]
    · rintro sd a ⟨j, rfl, hj⟩ -
      obtain ⟨⟨b, hb, hr⟩, -⟩ := C39_round_trip c o x I256.ZERO j
      rw [(C39_serialize c o x I256.ZERO).1] at hb
      injection hb with hb
      injection hb with hb
      exact ⟨j, rfl, hr (hb ▸ hj)⟩
  | compressed o =>
    obtain ⟨n, hn, hl, hm⟩ := C40_u256_serialize c o x
    obtain ⟨b, hb, hr, -⟩ := C40_u256_round_trip c o x
    have e : b = o.arrange (leBytes n (x.toNat c)) := by
      rw [hn] at hb
      injection hb with hb
      injection hb with hb
      exact hb.symm
    have hn32 : n ≤ 32 := hm 32 (by norm_num; omega)
    refine ⟨_, hb, ?_, ?_⟩
    · show b.length ≤ 78
      rw [e]
      cases o
      · simp [Order.arrange]; omega
      · simp [Order.arrange]; omega
    · rintro sd a ⟨j, rfl, hj⟩ -
      exact ⟨j, rfl, hr j hj⟩

/-- What an `I256` field goes through. -/
private theorem i_field (c : Cfg) (k : Chunking) (s : Scheme) (x : I256) :
    ∃ d, x.serializeWith c k s = .ok d ∧ d.size ≤ 78
      ∧ ∀ sd a, Answers sd d s.request a → (sd = true ∨ s ≠ .permissive) →
          ∃ i, a = some i ∧ (I256.deserializeWith c s i = .ok (.ok x) ↔ (Field.signed s x).Survives c) := by
  have h1 := I256.le_toInt c x
  have h2 := I256.toInt_lt c x
  obtain ⟨-, hs, -, hd⟩ := C37_serialize c k U256.ZERO x
  obtain ⟨-, ⟨t, ht, ho⟩, -, ⟨t', ht', hdd⟩⟩ := C37_round_trip c k U256.ZERO x
  have e1 : t = (if x.toInt c < 0 then str "-0x" else str "0x") ++ (Nat.toDigits 16 (x.toInt c).natAbs).map asc := by
    rw [hs] at ht
    injection ht with ht
    injection ht with ht
    exact ht.symm
  have l1 : t.length ≤ 78 := by
    rw [e1, List.length_append, List.length_map]
    have := hex_length (n := (x.toInt c).natAbs) (k := 64) (by norm_num; omega) (by omega)
    have h2 : (str "0x").length = 2 := rfl
    have h3 : (str "-0x").length = 3 := rfl
    split <;> omega
  have e2 : t' = str (toString (x.toInt c)) := by
    rw [hd] at ht'
    injection ht' with ht'
    injection ht' with ht'
    exact ht'.symm
  have l2 : t'.length ≤ 78 := by
    rw [e2, str, List.length_map]
    cases hz : x.toInt c with
    | ofNat n =>
      rw [hz] at h2
      show (toString n).toList.length ≤ 78
      rw [Nat.toString_eq_repr, Nat.toList_repr]
      refine dec_length (lt_of_lt_of_le (b := 2 ^ 256) ?_ (by norm_num)) (by omega)
      have : (Int.ofNat n) = (n : Int) := rfl
      omega
    | negSucc n =>
      rw [hz] at h1
      show ("-" ++ toString (n + 1)).toList.length ≤ 78
      rw [String.toList_append, Nat.toString_eq_repr, Nat.toList_repr]
      have hn : n + 1 < 10 ^ 77 := by
        have e : Int.negSucc n = -(n + 1 : Nat) := rfl
        rw [e] at h1
        refine lt_of_le_of_lt (b := 2 ^ 255) ?_ (by norm_num)
        omega
      have := dec_length hn (by omega)
      rw [List.length_append]
      have h3 : ("-" : String).toList.length = 1 := rfl
      omega
  have hown := fun i hi => (ho i hi).1
  have hpre := fun i hi => (ho i hi).2
  have key {s : Scheme} {a : Option Input} (hsv : (Field.signed s x).Survives c)
      (h : ∃ i, a = some i ∧ I256.deserializeWith c s i = .ok (.ok x)) :
      ∃ i, a = some i ∧ (I256.deserializeWith c s i = .ok (.ok x) ↔ (Field.signed s x).Survives c) := by
    obtain ⟨i, hi, h⟩ := h
    exact ⟨i, hi, iff_of_true h hsv⟩
  cases s with
  | own => exact ⟨_, ht, l1, fun sd a ha _ => key trivial (text_ans ha hown)⟩
  | decimal => exact ⟨_, ht', l2, fun sd a ha _ => key trivial (text_ans ha hdd)⟩
  | prefixed => exact ⟨_, ht, l1, fun sd a ha _ => key trivial (text_ans ha hpre)⟩
  | permissive =>
    refine ⟨_, ht, l1, fun sd a ha hp => key trivial ?_⟩
    have hsd : sd = true := by simpa using hp
    subst hsd
    refine ⟨.str t, ha, ?_⟩
    exact (C38_i256 c (.str t) x).2 (.inl ⟨t, rfl, text_of (C37_accepts c).2.2.2.2.2 hpre⟩)
  | bytes o =>
    refine ⟨_, (C39_serialize c o U256.ZERO x).2, ?_, ?_⟩
    · show (o.arrange _).length ≤ 78
      cases o
      · simp [Order.arrange]
      · simp [Order.arrange]
    · rintro sd a ⟨j, rfl, hj⟩ -
      obtain ⟨-, ⟨b, hb, hr⟩⟩ := C39_round_trip c o U256.ZERO x j
      rw [(C39_serialize c o U256.ZERO x).2] at hb
      injection hb with hb
      injection hb with hb
      exact key trivial ⟨j, rfl, hr (hb ▸ hj)⟩
  | compressed o =>
    obtain ⟨n, hn, hl, -, -⟩ := C40_i256_serialize c o x
    have hlen : (o.arrange (leBytes n (x.toInt c % 2 ^ 256).toNat)).length ≤ 32 := by
      cases o
      · simp [Order.arrange]; omega
      · simp [Order.arrange]; omega
    refine ⟨_, hn, hlen.trans (by omega), ?_⟩
    rintro sd a ⟨j, rfl, hj⟩ -
    refine ⟨j, rfl, ?_⟩
    show I256.deserialize_compressed c o j = _ ↔ _
    rw [(C40_i256_delivery c o j).1 _ hj hlen]
    cases o with
    | le =>
      obtain ⟨b, hb, hr, -⟩ := C40_i256_le_partial c x
      rw [hn] at hb
      injection hb with hb
      injection hb with hb
      rw [hb]
      exact hr
    | be =>
      obtain ⟨b, hb, hr⟩ := C40_i256_be_partial c x
      rw [hn] at hb
      injection hb with hb
      injection hb with hb
      rw [hb]
      exact hr

private theorem field (c : Cfg) (k : Chunking) (f : Field) :
    ∃ d, f.serialize c k = .ok d ∧ d.size ≤ 78
      ∧ ∀ sd a, Answers sd d f.shape.scheme.request a → (sd = true ∨ f.shape.scheme ≠ .permissive) →
          (f.shape.deserialize c a = .ok (.ok f) ↔ f.Survives c) := by
  cases f with
  | unsigned s x =>
    obtain ⟨d, hd, hl, h⟩ := u_field c k s x
    refine ⟨d, hd, hl, fun sd a ha hp => ?_⟩
    obtain ⟨i, rfl, hi⟩ := h sd a ha hp
    refine iff_of_true ?_ trivial
    show (do return (← U256.deserializeWith c s i).map (Field.unsigned s)) = _
    rw [hi]
    rfl
  | signed s x =>
    obtain ⟨d, hd, hl, h⟩ := i_field c k s x
    refine ⟨d, hd, hl, fun sd a ha hp => ?_⟩
    obtain ⟨i, rfl, hi⟩ := h sd a ha hp
    rw [← hi]
    show (do return (← I256.deserializeWith c s i).map (Field.signed s)) = _ ↔ _
    cases h : I256.deserializeWith c s i with
    | error e => exact iff_of_false (by intro h; cases h) (by intro h; cases h)
    | ok r =>
      cases r with
      | error e => exact iff_of_false (by intro h; cases h) (by intro h; cases h)
      | ok y =>
        show Except.ok (Except.ok (Field.signed s y)) = _ ↔ _
        simp

private theorem shape_total (c : Cfg) (s : Shape) (a : Option Input) :
    ∃ r, s.deserialize c a = .ok r ∧ ∀ f, r = .ok f → f.shape = s := by
  have hf := C37_accepts c
  cases a with
  | none =>
    cases s with
    | unsigned s => exact ⟨_, rfl, fun f h => by cases h⟩
    | signed s => exact ⟨_, rfl, fun f h => by cases h⟩
  | some i =>
    cases s with
    | unsigned s =>
      have h : ∃ r, U256.deserializeWith c s i = .ok r := by
        cases s with
        | own => exact hf.1.2.2.2.1 i
        | decimal => exact hf.2.2.1.2.2.2.1 i
        | prefixed => exact hf.2.2.2.2.1.2.2.2.1 i
        | permissive => exact (C38_total c i).2.1
        | bytes o => exact (C39_accepts c o i).2.2.1
        | compressed o => exact (C40_u256_accepts c o i).2
      obtain ⟨r, hr⟩ := h
      refine ⟨r.map (Field.unsigned s), ?_, fun f h => ?_⟩
      · show (do return (← U256.deserializeWith c s i).map (Field.unsigned s)) = _
        rw [hr]
        rfl
      · cases r with
        | error e => cases h
        | ok y =>
          cases h
          rfl
    | signed s =>
      have h : ∃ r, I256.deserializeWith c s i = .ok r := by
        cases s with
        | own => exact hf.2.1.2.2.2.1 i
        | decimal => exact hf.2.2.2.1.2.2.2.1 i
        | prefixed => exact hf.2.2.2.2.2.2.2.2.1 i
        | permissive => exact (C38_total c i).1
        | bytes o => exact (C39_accepts c o i).2.2.2
        | compressed o => exact (C40_i256_delivery c o i).2
      obtain ⟨r, hr⟩ := h
      refine ⟨r.map (Field.signed s), ?_, fun f h => ?_⟩
      · show (do return (← I256.deserializeWith c s i).map (Field.signed s)) = _
        rw [hr]
        rfl
      · cases r with
        | error e => cases h
        | ok y =>
          cases h
          rfl

private theorem all_cons (c : Cfg) (s : Shape) (l : List Shape) (as : List (Option Input)) :
    deserializeAll c (s :: l) as = (do
      match ← s.deserialize c as.head?.join with
      | .error e => fail e
      | .ok f => do
        match ← deserializeAll c l as.tail with
        | .error e => fail e
        | .ok fs => done (f :: fs)) := rfl

private theorem all_total (c : Cfg) (l : List Shape) (as : List (Option Input)) :
    ∃ r, deserializeAll c l as = .ok r ∧ ∀ fs, r = .ok fs → fs.map Field.shape = l := by
  induction l generalizing as with
  | nil => exact ⟨.ok [], rfl, fun fs h => by cases h; rfl⟩
  | cons s l ih =>
    obtain ⟨r, hr, hs⟩ := shape_total c s as.head?.join
    obtain ⟨r', hr', hs'⟩ := ih as.tail
    rw [all_cons, hr, hr']
    cases r with
    | error e => exact ⟨_, rfl, fun fs h => by cases h⟩
    | ok f =>
      cases r' with
      | error e => exact ⟨_, rfl, fun fs h => by cases h⟩
      | ok fs' =>
        refine ⟨.ok (f :: fs'), rfl, fun fs h => ?_⟩
        cases h
        rw [List.map_cons, hs f rfl, hs' fs' rfl]

private theorem all_fields (c : Cfg) (k : Chunking) (l : List Field) :
    ∃ ds, serializeAll c k l = .ok ds ∧ ds.length = l.length ∧ (∀ d ∈ ds, d.size ≤ 78)
      ∧ ∀ sd as, (∀ (i : Nat) d r, ds[i]? = some d → (l.map fun f => f.shape.scheme.request)[i]? = some r →
            ∃ a, as[i]? = some a ∧ Answers sd d r a) →
          ((sd = true ∨ ∀ f ∈ l, f.shape.scheme ≠ .permissive) →
            (deserializeAll c (l.map Field.shape) as = .ok (.ok l) ↔ ∀ f ∈ l, f.Survives c))
          ∧ (sd = false → (∃ f ∈ l, f.shape.scheme = .permissive) →
            ∃ e, deserializeAll c (l.map Field.shape) as = .ok (.error e)) := by
  induction l with
  | nil =>
    refine ⟨[], rfl, rfl, by simp, fun sd as _ => ⟨fun _ => iff_of_true rfl (by simp), fun _ h => ?_⟩⟩
    obtain ⟨f, hf, -⟩ := h
    cases hf
  | cons f l ih =>
    obtain ⟨d, hd, hl, hfd⟩ := field c k f
    obtain ⟨ds, hds, hlen, hsz, hall⟩ := ih
    refine ⟨d :: ds, ?_, by rw [List.length_cons, List.length_cons, hlen], ?_, fun sd as ha => ?_⟩
    · show (do let d ← f.serialize c k; let ds ← serializeAll c k l; return d :: ds) = _
      rw [hd, hds]
      rfl
    · intro d' hd'
      rcases List.mem_cons.1 hd' with rfl | h
      · exact hl
      · exact hsz _ h
    · obtain ⟨a, ha0, hans⟩ := ha 0 d f.shape.scheme.request rfl rfl
      have htl : ∀ (i : Nat) d r, ds[i]? = some d → (l.map fun f => f.shape.scheme.request)[i]? = some r →
          ∃ a, as.tail[i]? = some a ∧ Answers sd d r a := by
        intro i d' r hd' hr
        obtain ⟨a', ha', hans'⟩ := ha (i + 1) d' r (by simpa using hd') (by simpa using hr)
        exact ⟨a', by rw [List.getElem?_tail]; exact ha', hans'⟩
      obtain ⟨h1, h2⟩ := hall sd as.tail htl
      have hhead : as.head?.join = a := by
        rw [List.head?_eq_getElem?, ha0]
        rfl
      rw [List.map_cons, all_cons, hhead]
      constructor
      · intro hp
        have hp1 : sd = true ∨ f.shape.scheme ≠ .permissive := hp.imp id (fun h => h f (by simp))
        have hp2 : sd = true ∨ ∀ f ∈ l, f.shape.scheme ≠ .permissive :=
          hp.imp id (fun h g hg => h g (by simp [hg]))
        have e1 := hfd sd a hans hp1
        have e2 := h1 hp2
        rw [List.forall_mem_cons, ← e1, ← e2]
        obtain ⟨r, hr, -⟩ := shape_total c f.shape a
        obtain ⟨r', hr', -⟩ := all_total c (l.map Field.shape) as.tail
        rw [hr, hr']
        cases r with
        | error e => exact iff_of_false (by intro h; cases h) (by rintro ⟨h, -⟩; cases h)
        | ok g =>
          cases r' with
          | error e => exact iff_of_false (by intro h; cases h) (by rintro ⟨-, h⟩; cases h)
          | ok gs =>
            show Except.ok (Except.ok (g :: gs)) = _ ↔ _
            simp
      · intro hsd hex
        subst hsd
        obtain ⟨r, hr, -⟩ := shape_total c f.shape a
        obtain ⟨r', hr', -⟩ := all_total c (l.map Field.shape) as.tail
        by_cases hf : f.shape.scheme = .permissive
        · have : r = .error .input := by
            have hn : a = none := by
              rw [hf] at hans
              cases d with
              | str t => exact hans
              | bytes b => exact hans rfl
            subst hn
            cases f with
            | unsigned s x => cases hr; rfl
            | signed s x => cases hr; rfl
          rw [hr, this]
          exact ⟨_, rfl⟩
        · have : ∃ f ∈ l, f.shape.scheme = .permissive := by
            obtain ⟨g, hg, hgp⟩ := hex
            rcases List.mem_cons.1 hg with rfl | h
            · exact absurd hgp hf
            · exact ⟨g, h, hgp⟩
          obtain ⟨e, he⟩ := h2 rfl this
          rw [hr, he]
          cases r with
          | error e' => exact ⟨_, rfl⟩
          | ok g => exact ⟨_, rfl⟩

/-- Serializing never fails, and what is read back from a faithful format is what was written, field by field, exactly
when every field survives its own scheme. With a format that is not self-describing this leaves out `permissive`. -/
theorem C57_round_trip (c : Cfg) (k : Chunking) (f : Format) (sd : Bool) (hf : f.Faithful sd) (l : List Field)
    (hp : sd = true ∨ ∀ x ∈ l, x.shape.scheme ≠ .permissive) :
    ∃ doc, f.save c k l = .ok doc
      ∧ (f.load c (l.map Field.shape) doc = .ok (.ok l) ↔ ∀ x ∈ l, x.Survives c) := by
  obtain ⟨ds, hds, hlen, hsz, hall⟩ := all_fields c k l
  refine ⟨f.write ds, ?_, ?_⟩
  · rw [Format.save, hds]
    rfl
  · rw [Format.load, List.map_map]
    refine (hall sd _ ?_).1 hp
    intro i d r hd hr
    exact hf ds _ (by rw [hlen, List.length_map]) hsz i d r hd hr

/-- In particular every record of fields in the text and plain byte formats, and of unsigned ones in the compressed
formats, is recovered. -/
theorem C57_records (c : Cfg) (k : Chunking) (f : Format) (hf : f.Faithful true) (l : List Field)
    (hl : ∀ s x o, Field.signed s x ∈ l → s ≠ .compressed o) :
    ∃ doc, f.save c k l = .ok doc ∧ f.load c (l.map Field.shape) doc = .ok (.ok l) := by
  obtain ⟨doc, hd, h⟩ := C57_round_trip c k f true hf l (.inl rfl)
  refine ⟨doc, hd, h.2 fun x hx => ?_⟩
  cases x with
  | unsigned s x => trivial
  | signed s x =>
    cases s with
    | compressed o => exact absurd rfl (hl _ _ o hx)
    | _ => trivial

/-- A format that is not self-describing never gives back a record with a `permissive` field, though it writes it. -/
theorem C57_permissive_needs_self_describing (c : Cfg) (k : Chunking) (f : Format) (hf : f.Faithful false) (l : List Field)
    (hp : ∃ x ∈ l, x.shape.scheme = .permissive) :
    ∃ doc e, f.save c k l = .ok doc ∧ f.load c (l.map Field.shape) doc = .ok (.error e) := by
  obtain ⟨ds, hds, hlen, hsz, hall⟩ := all_fields c k l
  have hr : ∀ (i : Nat) d r, ds[i]? = some d → (l.map fun f => f.shape.scheme.request)[i]? = some r →
      ∃ a, (f.read (l.map fun f => f.shape.scheme.request) (f.write ds))[i]? = some a ∧ Answers false d r a :=
    fun i d r hd hr => hf ds _ (by rw [hlen, List.length_map]) hsz i d r hd hr
  obtain ⟨e, he⟩ := (hall false _ hr).2 rfl hp
  refine ⟨f.write ds, e, ?_, ?_⟩
  · rw [Format.save, hds]
    rfl
  · rw [Format.load, List.map_map]
    exact he

/-- C57: what a field is written as, in every scheme. -/
theorem C57_fields_written (c : Cfg) (k : Chunking) (s : Scheme) (x : U256) (y : I256) :
    (∃ d, x.serializeWith c k s = .ok d ∧ s.WritesU (x.toNat c) d)
    ∧ (∃ d, y.serializeWith c k s = .ok d ∧ s.WritesI (y.toInt c) d) := by
  obtain ⟨h1, h2, h3, h4⟩ := C37_serialize c k x y
  cases s with
  | own => exact ⟨⟨_, h1, rfl⟩, ⟨_, h2, rfl⟩⟩
  | decimal => exact ⟨⟨_, h3, rfl⟩, ⟨_, h4, rfl⟩⟩
  | prefixed => exact ⟨⟨_, h1, rfl⟩, ⟨_, h2, rfl⟩⟩
  | permissive => exact ⟨⟨_, h1, rfl⟩, ⟨_, h2, rfl⟩⟩
  | bytes o => exact ⟨⟨_, (C39_serialize c o x y).1, rfl⟩, ⟨_, (C39_serialize c o x y).2, rfl⟩⟩
  | compressed o =>
    obtain ⟨n, e1, e2, e3⟩ := C40_u256_serialize c o x
    obtain ⟨m, f1, -, f2, f3⟩ := C40_i256_serialize c o y
    exact ⟨⟨_, e1, n, rfl, e2, e3⟩, ⟨_, f1, m, rfl, f2, f3⟩⟩

example : (U256.ofNat rel 255).serializeWith rel Chunking.bytewise .permissive = .ok (.str (str "0xff"))
    ∧ (I256.ofInt dbg (-255)).serializeWith dbg Chunking.whole .decimal = .ok (.str (str "-255"))
    ∧ (I256.ofInt dbg (-255)).serializeWith dbg Chunking.whole (.compressed .be) = .ok (.bytes [0xff, 0x01]) := by
  decide +kernel

/-- A text format reads what its parser reads. -/
private theorem text_reads {T : Type} {de : Input → Res (Outcome T)} {parse : List U8 → Res (ParseResult T)}
    (h : TextFormat de parse) (P : List U8 → T → Prop) (hP : ∀ t x, parse t = .ok (.ok x) ↔ P t x) (i : Input) (x : T) :
    de i = .ok (.ok x) ↔ ∃ t, i.IsText t ∧ P t x := by
  obtain ⟨h1, h2, -, -, h5⟩ := h
  constructor
  · intro hd
    obtain ⟨t, rfl | rfl⟩ := h5 i x hd
    · exact ⟨t, .inl rfl, (hP t x).1 ((h1 t x).1 hd)⟩
    · exact ⟨t, .inr rfl, (hP t x).1 ((h2 t x).1 hd)⟩
  · rintro ⟨t, rfl | rfl, ht⟩
    · exact (h1 t x).2 ((hP t x).2 ht)
    · exact (h2 t x).2 ((hP t x).2 ht)

/-- C57: what a field makes of an answer of the format, in every scheme: the value it returns is the number the input
denotes under that scheme, and it returns one whenever the input denotes a number of its type. -/
theorem C57_fields_read (c : Cfg) (s : Scheme) (i : Input) :
    (∀ x, U256.deserializeWith c s i = .ok (.ok x) ↔ s.ReadsU i (x.toNat c))
    ∧ (∀ x, I256.deserializeWith c s i = .ok (.ok x) ↔ s.ReadsI i (x.toInt c)) := by
  obtain ⟨a1, a2, a3, a4, a5, a6⟩ := C37_accepts c
  cases s with
  | own =>
    refine ⟨fun x => ?_, fun x => ?_⟩
    · refine (text_reads a1 (fun t x => ∃ d, dropPlus t = str "0x" ++ d ∧ Numeral 16 d (x.toNat c))
        (fun t x => (C30_from_str_hex c t).2.2.1 x) i x).trans ?_
      constructor
      · rintro ⟨t, h1, d, h2, h3⟩; exact ⟨t, d, h1, h2, h3⟩
      · rintro ⟨t, d, h1, h2, h3⟩; exact ⟨t, h1, d, h2, h3⟩
    · exact text_reads a2 (fun t x => SignedNumeral (str "0x") 16 t (x.toInt c))
        (fun t x => (C30_from_str_hex c t).2.2.2.1 x) i x
  | decimal =>
    refine ⟨fun x => ?_, fun x => ?_⟩
    · exact text_reads a3 (fun t x => Numeral 10 (dropPlus t) (x.toNat c))
        (fun t x => (C28_from_str_radix c t 10 (by decide)).2.1 x) i x
    · exact text_reads a4 (fun t x => SignedNumeral [] 10 t (x.toInt c))
        (fun t x => (C29_from_str_radix c t 10 (by decide)).2.1 x) i x
  | prefixed =>
    refine ⟨fun x => ?_, fun x => ?_⟩
    · exact text_reads a5 (fun t x => PrefixedNumeral (dropPlus t) (x.toNat c))
        (fun t x => (C30_u256_from_str_prefixed c t).2.1 x) i x
    · exact text_reads a6 (fun t x => SignedPrefixedNumeral t (x.toInt c))
        (fun t x => (C30_i256_from_str_prefixed c t).2.1 x) i x
  | permissive =>
    refine ⟨fun x => (C38_u256_exact c i x).trans ?_, fun x => (C38_i256 c i x).trans ?_⟩
    · refine or_congr (exists_congr fun t => and_congr_right fun _ => ?_) Iff.rfl
      exact (C30_u256_from_str_prefixed c t).2.1 x
    · refine or_congr (exists_congr fun t => and_congr_right fun _ => ?_) Iff.rfl
      exact (C30_i256_from_str_prefixed c t).2.1 x
  | bytes o => exact ⟨(C39_accepts c o i).1, (C39_accepts c o i).2.1⟩
  | compressed o =>
    refine ⟨(C40_u256_accepts c o i).1, fun x => (C40_i256_accepts c o i x).trans ?_⟩
    cases o
    · exact exists_congr fun b => and_congr_right fun _ => and_congr_right fun _ => eq_comm
    · exact Iff.rfl

example : Scheme.decimal.ReadsU (.str (str "+12")) 12 ∧ Scheme.permissive.ReadsI (.i8 (-5)) (-5)
    ∧ (Scheme.compressed .le).ReadsI (.bytes [0xff]) (-1) := by
  refine ⟨⟨_, .inl rfl, ?_⟩, .inr ⟨by decide +kernel, fun h => h⟩, ⟨_, by decide, .inl rfl, by decide +kernel⟩⟩
  exact Numeral.snoc (l := [49]) (v := 1) (b := 50) (d := 2) (.one (by unfold IsDigit; decide)) (by unfold IsDigit; decide)

/-- Whatever a format or the document's author does, loading returns: an error, or a record of the shape asked for. -/
theorem C57_total (c : Cfg) (f : Format) (l : List Shape) (doc : f.Doc) :
    (∃ e, f.load c l doc = .ok (.error e))
    ∨ ∃ fs, f.load c l doc = .ok (.ok fs) ∧ fs.map Field.shape = l := by
  obtain ⟨r, hr, hs⟩ := all_total c l (f.read (l.map fun s => s.scheme.request) doc)
  cases r with
  | error e => exact .inl ⟨e, hr⟩
  | ok fs => exact .inr ⟨fs, hr, hs fs rfl⟩

/-! ### two formats, one of each kind -/

namespace Serde

/-- A value of a JSON document, as far as this crate's fields write them: serde_json writes bytes as an array. -/
inductive Json where
  | string (s : List U8)
  | array (l : List U8)
  deriving DecidableEq, Repr

/-- JSON, by its value trees: whatever is asked for, the visitor is called with what is there. -/
def json : Format where
  Doc := List Json
  write ds := ds.map fun d => match d with
    | .str t => .string t
    | .bytes b => .array b
  read rs doc := List.zipWith (fun _ v => match v with
    | .string t => some (.str t)
    | .array l => some (.seq none (l.map some))) rs doc

/-- The bytes of a field in a length-prefixed binary format. -/
def binaryField (d : Datum) : List U8 :=
  match d with
  | .str t => leBytes 8 t.length ++ t
  | .bytes b => leBytes 8 b.length ++ b

/-- The answers of a length-prefixed binary format. -/
def binaryRead : List Request → List U8 → List (Option Input)
  | [], _ => []
  | r :: rs, doc =>
    let n := leValue (doc.take 8)
    let payload := (doc.drop 8).take n
    (match r with
      | .str => some (.str payload)
      | .bytes => some (.bytes payload)
      | .any => none) :: binaryRead rs ((doc.drop 8).drop n)

/-- A binary format without type tags, like bincode: the fields one after another, each with its length in eight
bytes. It cannot tell what the next field is. -/
def binary : Format where
  Doc := List U8
  write ds := (ds.map binaryField).flatten
  read := binaryRead

theorem C57_json_faithful_aux : json.Faithful true := by
  intro ds rs hlen _ i d r hd hr
  have hi : i < ds.length := (List.getElem?_eq_some_iff.1 hd).1
  simp only [json, List.getElem?_zipWith, List.getElem?_map, hd, hr, Option.map_some]
  cases d with
  | str t =>
    refine ⟨_, rfl, ?_⟩
    cases r
    · exact .inl rfl
    · trivial
    · rfl
  | bytes b =>
    refine ⟨_, rfl, ?_⟩
    cases r
    · trivial
    · exact ⟨_, rfl, .inr ⟨none, rfl, .inl rfl⟩⟩
    · intro h
      cases h

private theorem binary_step (d : Datum) (h : d.size ≤ 78) (rest : List U8) (r : Request) (rs : List Request) :
    binaryRead (r :: rs) (binaryField d ++ rest)
      = (match r, d with
          | .str, .str t => some (.str t)
          | .str, .bytes t => some (.str t)
          | .bytes, .str t => some (.bytes t)
          | .bytes, .bytes t => some (.bytes t)
          | .any, _ => none) :: binaryRead rs rest := by
  have key (t : List U8) (ht : t.length ≤ 78) :
      leValue (((leBytes 8 t.length ++ t) ++ rest).take 8) = t.length
      ∧ ((leBytes 8 t.length ++ t) ++ rest).drop 8 = t ++ rest := by
    rw [List.append_assoc, List.take_append_of_le_length (by simp), List.drop_append_of_le_length (by simp),
      List.take_of_length_le (by simp), List.drop_of_length_le (by simp), leValue_leBytes]
    refine ⟨Nat.mod_eq_of_lt (by norm_num; omega), rfl⟩
  cases d with
  | str t =>
    obtain ⟨h1, h2⟩ := key t h
    simp only [binaryRead, binaryField, h1, h2, List.take_left, List.drop_left]
    cases r <;> rfl
  | bytes t =>
    obtain ⟨h1, h2⟩ := key t h
    simp only [binaryRead, binaryField, h1, h2, List.take_left, List.drop_left]
    cases r <;> rfl

theorem C57_binary_faithful_aux : binary.Faithful false := by
  intro ds rs
  show _ → _ → ∀ (i : Nat) d r, _ → _ → ∃ a, (binaryRead rs (ds.map binaryField).flatten)[i]? = some a ∧ _
  induction ds generalizing rs with
  | nil =>
    intro _ _ i d r hd
    cases i <;> cases hd
  | cons d ds ih =>
    intro hlen hsz i d' r hd hr
    cases rs with
    | nil => cases hlen
    | cons r0 rs =>
      rw [List.map_cons, List.flatten_cons, binary_step d (hsz d (by simp))]
      cases i with
      | zero =>
        rw [List.getElem?_cons_zero] at hd hr
        cases hd
        cases hr
        refine ⟨_, rfl, ?_⟩
        cases d with
        | str t =>
          cases r
          · exact .inl rfl
          · trivial
          · rfl
        | bytes t =>
          cases r
          · trivial
          · exact ⟨_, rfl, .inl rfl⟩
          · exact fun _ => rfl
      | succ j =>
        rw [List.getElem?_cons_succ] at hd hr
        obtain ⟨a, ha, h⟩ := ih rs (by simpa using hlen) (fun d hd => hsz d (by simp [hd])) j d' r hd hr
        exact ⟨a, by rw [List.getElem?_cons_succ]; exact ha, h⟩

end Serde

/-- A JSON-like tree format and a length-prefixed binary format are faithful, the first with and the second without
being self-describing. -/
theorem C57_formats : json.Faithful true ∧ binary.Faithful false := ⟨C57_json_faithful_aux, C57_binary_faithful_aux⟩

/-- A record with a field of each scheme. -/
private def record : List Field :=
  [.unsigned .own (U256.ofNat dbg 42), .signed .decimal (I256.ofInt dbg (-42)), .unsigned .prefixed U256.MAX,
    .unsigned (.bytes .be) (U256.ofNat dbg 42), .signed (.bytes .le) (I256.MIN dbg),
    .unsigned (.compressed .be) (U256.ofNat dbg 300), .signed (.compressed .le) (I256.ofInt dbg (-42))]

example : (do
    let doc ← json.save dbg .whole (.signed .permissive (I256.ofInt dbg (-7)) :: record)
    json.load dbg ((Field.signed .permissive (I256.ofInt dbg (-7)) :: record).map Field.shape) doc)
      = .ok (.ok (.signed .permissive (I256.ofInt dbg (-7)) :: record)) := by decide +kernel
example : (do
    let doc ← binary.save dbg .bytewise record
    binary.load dbg (record.map Field.shape) doc) = .ok (.ok record) := by decide +kernel
example : (do
    let doc ← binary.save dbg .whole [.unsigned .permissive (U256.ofNat dbg 5)]
    binary.load dbg [.unsigned .permissive] doc) = .ok (.error .input) := by decide +kernel
-- a field that does not survive (C40): 255 comes back as -1
example : (do
    let doc ← binary.save dbg .whole [.signed (.compressed .le) (I256.ofInt dbg 255)]
    binary.load dbg [.signed (.compressed .le)] doc)
      = .ok (.ok [.signed (.compressed .le) (I256.MINUS_ONE dbg)]) := by decide +kernel

end Ethnum
