import Verif.Proto.WireLemmas
import Verif.Proto.TxSpec

/-!
# Lemmas for C99
-/

namespace Amp.Proto

/-! ### What can be written -/

/-- the tag is one that fields have, and a number is in range -/
def TagOk : Nat × Field → Prop
  | (tag, .varint n) => 0 < tag ∧ tag ≤ 15 ∧ n ≤ u64Max
  | (tag, .bytes _) => 0 < tag ∧ tag ≤ 15
  | _ => False

theorem length_mem_write {l : List (Nat × Field)} {tag : Nat} {b : ByteList} (h : (tag, Field.bytes b) ∈ l) :
    b.length ≤ (write l).length := by
  induction l with
  | nil => simp at h
  | cons f t ih =>
    have e : write (f :: t) = writeField f ++ write t := rfl
    rw [e, List.length_append]
    rcases List.mem_cons.mp h with rfl | h
    · rw [writeField, List.length_append]; omega
    · have := ih h; omega

theorem writable_of {l : List (Nat × Field)} (h : ∀ f ∈ l, TagOk f) (hl : (write l).length ≤ u64Max) : ∀ f ∈ l, Writable f := by
  rintro ⟨tag, c⟩ hf
  have := h _ hf
  cases c with
  | varint n => exact ⟨this.1, by have := this.2.1; omega, this.2.2⟩
  | bytes b => exact ⟨this.1, by have := this.2; omega, Nat.le_trans (length_mem_write hf) hl⟩
  | fixed64 b => exact this.elim
  | fixed32 b => exact this.elim

theorem fields_of {l : List (Nat × Field)} (h : ∀ f ∈ l, TagOk f) (hl : (write l).length ≤ u64Max) : fields (write l) = some l :=
  fields_write (writable_of h hl)

theorem tagOk_append {a b : List (Nat × Field)} (ha : ∀ f ∈ a, TagOk f) (hb : ∀ f ∈ b, TagOk f) : ∀ f ∈ a ++ b, TagOk f := by
  intro f hf
  rcases List.mem_append.mp hf with h | h
  · exact ha f h
  · exact hb f h

theorem tagOk_str {tag : Nat} (h0 : 0 < tag) (h1 : tag ≤ 15) (s : Str) : ∀ f ∈ str tag s, TagOk f := by
  intro f hf
  unfold str at hf
  split at hf
  · simp at hf
  · rw [List.mem_singleton] at hf; subst hf; exact ⟨h0, h1⟩

theorem tagOk_raw {tag : Nat} (h0 : 0 < tag) (h1 : tag ≤ 15) (s : ByteList) : ∀ f ∈ raw tag s, TagOk f := by
  intro f hf
  unfold raw at hf
  split at hf
  · simp at hf
  · rw [List.mem_singleton] at hf; subst hf; exact ⟨h0, h1⟩

theorem tagOk_num {tag : Nat} (h0 : 0 < tag) (h1 : tag ≤ 15) {n : Nat} (hn : n ≤ u64Max) : ∀ f ∈ num tag n, TagOk f := by
  intro f hf
  unfold num at hf
  split at hf
  · simp at hf
  · rw [List.mem_singleton] at hf; subst hf; exact ⟨h0, h1, hn⟩

theorem tagOk_many {tag : Nat} (h0 : 0 < tag) (h1 : tag ≤ 15) (l : List ByteList) : ∀ f ∈ many tag l, TagOk f := by
  intro f hf
  obtain ⟨b, _, rfl⟩ := List.mem_map.mp hf
  exact ⟨h0, h1⟩

theorem tagOk_one {tag : Nat} (h0 : 0 < tag) (h1 : tag ≤ 15) (b : ByteList) : ∀ f ∈ [(tag, Field.bytes b)], TagOk f := by
  intro f hf
  rw [List.mem_singleton] at hf; subst hf; exact ⟨h0, h1⟩

theorem allWith_one_self (tag : Nat) (b : ByteList) : allWith tag [(tag, Field.bytes b)] = [.bytes b] := by simp [allWith]

theorem allWith_one {tag tag' : Nat} (h : tag ≠ tag') (b : ByteList) : allWith tag [(tag', Field.bytes b)] = [] := by
  simp [allWith, Ne.symm h]

/-- lengths of parts that are left out when empty -/
theorem length_raw_part {tag : Nat} {b : ByteList} {l : List (Nat × Field)} (h : ∀ f ∈ raw tag b, f ∈ l) :
    b.length ≤ (write l).length := by
  by_cases hb : b = []
  · simp [hb]
  · exact length_mem_write (tag := tag) (h _ (by simp [raw, hb]))

/-! ### Repeated fields -/

theorem readEach_map {α : Type} {f : ByteList → Option α} {g : α → ByteList} {l : List α} (h : ∀ a ∈ l, f (g a) = some a) :
    readEach f (l.map g) = some l := by
  induction l with
  | nil => rfl
  | cons a t ih =>
    rw [List.map_cons, readEach, h a (by simp), ih (fun b hb => h b (List.mem_cons_of_mem _ hb))]

theorem length_many {tag : Nat} {l : List ByteList} {fs : List (Nat × Field)} (h : ∀ f ∈ many tag l, f ∈ fs) :
    ∀ b ∈ l, b.length ≤ (write fs).length := fun b hb => length_mem_write (tag := tag) (h _ (List.mem_map.mpr ⟨b, hb, rfl⟩))

/-! ### Messages -/

theorem tagOk_any (a : AnyMsg) : ∀ f ∈ a.fields, TagOk f :=
  tagOk_append (tagOk_str (by decide) (by decide) _) (tagOk_raw (by decide) (by decide) _)

theorem ofFields_any (a : AnyMsg) : AnyMsg.ofFields a.fields = some a := by
  have h1 : getStr 1 a.fields = some a.typeUrl := getStr_self (by
    simp [AnyMsg.fields, allWith_append, allWith_str_self, allWith_raw (tag := 1) (tag' := 2) (by decide)])
  have h2 : getRaw 2 a.fields = some a.value := getRaw_self (by
    simp [AnyMsg.fields, allWith_append, allWith_raw_self, allWith_str (tag := 2) (tag' := 1) (by decide)])
  rw [AnyMsg.ofFields, h1, h2]

theorem readAny_write {a : AnyMsg} (h : (write a.fields).length ≤ u64Max) : readAny (write a.fields) = some a := by
  rw [readAny, fields_of (tagOk_any a) h]
  exact ofFields_any a

theorem digits_showNat (n : Nat) : digits (showNat n) = some n := by
  have h := isDigits_showNat n
  rw [isDigits, Bool.and_eq_true, decide_eq_true_eq] at h
  rw [digits, if_pos h]
  exact congrArg some Nat.ofDigitChars_ten_toDigits

theorem tagOk_coin (c : CoinMsg) : ∀ f ∈ c.fields, TagOk f :=
  tagOk_append (tagOk_str (by decide) (by decide) _) (tagOk_str (by decide) (by decide) _)

theorem readCoin_write {c : CoinMsg} (h : (write c.fields).length ≤ u64Max) : readCoin (write c.fields) = some c := by
  have h1 : getStr 1 c.fields = some c.denom := getStr_self (by
    simp [CoinMsg.fields, allWith_append, allWith_str_self, allWith_str (tag := 1) (tag' := 2) (by decide)])
  have h2 : getStr 2 c.fields = some (showNat c.amount) := getStr_self (by
    simp [CoinMsg.fields, allWith_append, allWith_str_self, allWith_str (tag := 2) (tag' := 1) (by decide)])
  rw [readCoin, fields_of (tagOk_coin c) h]
  simp only [h1, h2, Option.bind_some, digits_showNat]

theorem tagOk_fee {f : FeeMsg} (h : f.gasLimit ≤ u64Max) : ∀ g ∈ f.fields, TagOk g :=
  tagOk_append (tagOk_many (by decide) (by decide) _) (tagOk_num (by decide) (by decide) h)

theorem readFee_fields {f : FeeMsg} (h : (write f.fields).length ≤ u64Max) :
    readFee f.fields = some (f.amount, f.gasLimit, [], []) := by
  have h1 : getMany 1 f.fields = some (f.amount.map (fun c => write c.fields)) := getMany_self (by
    simp [FeeMsg.fields, allWith_append, allWith_many_self, allWith_num (tag := 1) (tag' := 2) (by decide)])
  have h2 : getNum 2 f.fields = some f.gasLimit := getNum_self (by
    simp [FeeMsg.fields, allWith_append, allWith_num_self, allWith_many (tag := 2) (tag' := 1) (by decide)])
  have h3 : getStr 3 f.fields = some [] := getStr_self (by
    simp [FeeMsg.fields, allWith_append, allWith_num (tag := 3) (tag' := 2) (by decide),
      allWith_many (tag := 3) (tag' := 1) (by decide)])
  have h4 : getStr 4 f.fields = some [] := getStr_self (by
    simp [FeeMsg.fields, allWith_append, allWith_num (tag := 4) (tag' := 2) (by decide),
      allWith_many (tag := 4) (tag' := 1) (by decide)])
  have hc : readEach readCoin (f.amount.map (fun c => write c.fields)) = some f.amount :=
    readEach_map (fun c hc => readCoin_write (Nat.le_trans
      (length_many (tag := 1) (fun g hg => List.mem_append_left _ hg) _ (List.mem_map.mpr ⟨c, hc, rfl⟩)) h))
  rw [readFee, h1, h2, h3, h4]
  simp only [Option.bind_some, hc]

theorem tagOk_signer (key : AccountKey) {n : Nat} (h : n ≤ u64Max) : ∀ f ∈ signerFields key n, TagOk f :=
  tagOk_append (tagOk_append (a := [_]) (tagOk_one (by decide) (by decide) _) (tagOk_one (by decide) (by decide) _))
    (tagOk_num (by decide) (by decide) h)

theorem readSigner_write {key : AccountKey} {n : Nat} (hn : n ≤ u64Max) (h : (write (signerFields key n)).length ≤ u64Max) :
    readSigner (write (signerFields key n)) = some ⟨some key.any, direct, n⟩ := by
  have hk : (write key.any.fields).length ≤ u64Max := Nat.le_trans (length_mem_write (tag := 1) (by simp [signerFields])) h
  have h1 : getMsg 1 (signerFields key n) = some (some key.any.fields) :=
    getMsg_self (by
      rw [signerFields, allWith_append, allWith_num (by decide), List.append_nil]; simp [allWith])
      (writable_of (tagOk_any _) hk)
  have h2 : getMsg 2 (signerFields key n) = some (some modeFields) :=
    getMsg_self (by
      rw [signerFields, allWith_append, allWith_num (by decide), List.append_nil]; simp [allWith])
      (writable_of (tagOk_one (by decide) (by decide) _) (by decide +kernel))
  have h3 : getNum 3 (signerFields key n) = some n := getNum_self (by
    rw [signerFields, allWith_append, allWith_num_self]; simp [allWith])
  have h4 : getMsg 1 modeFields = some (some (num 1 direct)) := by decide +kernel
  rw [readSigner, fields_of (tagOk_signer key hn) h]
  simp only [getAny, h1, ofFields_any, Option.map_some, h2, h3, h4]
  rfl

theorem tagOk_auth (key : AccountKey) (n : Nat) (fee : FeeMsg) : ∀ f ∈ authFields key n fee, TagOk f :=
  tagOk_append (a := [_]) (tagOk_one (by decide) (by decide) _) (tagOk_one (by decide) (by decide) _)

theorem tagOk_body (ms : List AnyMsg) : ∀ f ∈ bodyFields ms, TagOk f := tagOk_many (by decide) (by decide) _

theorem readBody_write {ms : List AnyMsg} (h : (write (bodyFields ms)).length ≤ u64Max) :
    readBody (write (bodyFields ms)) = some (ms, [], 0) := by
  have h1 : getMany 1 (bodyFields ms) = some (ms.map (fun m => write m.fields)) := getMany_self (allWith_many_self _ _)
  have h2 : getStr 2 (bodyFields ms) = some [] := getStr_self (allWith_many (by decide) _)
  have h3 : getNum 3 (bodyFields ms) = some 0 := getNum_self (allWith_many (by decide) _)
  have hc : readEach readAny (ms.map (fun m => write m.fields)) = some ms :=
    readEach_map (fun c hc => readAny_write (Nat.le_trans
      (length_many (tag := 1) (fun g hg => hg) _ (List.mem_map.mpr ⟨c, hc, rfl⟩)) h))
  rw [readBody, fields_of (tagOk_body ms) h]
  simp only [h1, h2, h3, Option.bind_some, hc]

/-! ### Transactions -/

/-- the fields of `TxRaw` -/
def TxRaw.fields (t : TxRaw) : List (Nat × Field) := raw 1 t.body ++ raw 2 t.auth ++ many 3 t.signatures

theorem tagOk_tx (t : TxRaw) : ∀ f ∈ t.fields, TagOk f :=
  tagOk_append (tagOk_append (tagOk_raw (by decide) (by decide) _) (tagOk_raw (by decide) (by decide) _))
    (tagOk_many (by decide) (by decide) _)

theorem fields_tx {t : TxRaw} (h : t.bytes.length ≤ u64Max) : Proto.fields t.bytes = some t.fields := fields_of (tagOk_tx t) h

theorem getRaw_body (t : TxRaw) : getRaw 1 t.fields = some t.body := getRaw_self (by
  simp [TxRaw.fields, allWith_append, allWith_raw_self, allWith_raw (tag := 1) (tag' := 2) (by decide),
    allWith_many (tag := 1) (tag' := 3) (by decide)])

theorem getRaw_auth (t : TxRaw) : getRaw 2 t.fields = some t.auth := getRaw_self (by
  simp [TxRaw.fields, allWith_append, allWith_raw_self, allWith_raw (tag := 2) (tag' := 1) (by decide),
    allWith_many (tag := 2) (tag' := 3) (by decide)])

theorem getMany_sigs (t : TxRaw) : getMany 3 t.fields = some t.signatures := getMany_self (by
  simp [TxRaw.fields, allWith_append, allWith_many_self, allWith_raw (tag := 3) (tag' := 1) (by decide),
    allWith_raw (tag := 3) (tag' := 2) (by decide)])

theorem length_body (t : TxRaw) : t.body.length ≤ t.bytes.length :=
  length_raw_part (tag := 1) (fun _ hf => List.mem_append_left _ (List.mem_append_left _ hf))

theorem length_auth (t : TxRaw) : t.auth.length ≤ t.bytes.length :=
  length_raw_part (tag := 2) (fun _ hf => List.mem_append_left _ (List.mem_append_right _ hf))

theorem nodeReads_tx {t : Tx} (hr : t.InRange) {sigs : List ByteList}
    (h : (TxRaw.bytes ⟨write (bodyFields t.msgs), write (authFields t.pubKey t.accSequence t.fee), sigs⟩).length ≤ u64Max) :
    nodeReads (TxRaw.bytes ⟨write (bodyFields t.msgs), write (authFields t.pubKey t.accSequence t.fee), sigs⟩) =
      some ⟨t.msgs, [], 0, [⟨some t.pubKey.any, direct, t.accSequence⟩], t.fee.amount, t.fee.gasLimit, [], [], sigs⟩ := by
  have hb := Nat.le_trans (length_body _) h
  have ha := Nat.le_trans (length_auth _) h
  dsimp only at hb ha
  have hs : (write (signerFields t.pubKey t.accSequence)).length ≤ u64Max :=
    Nat.le_trans (length_mem_write (tag := 1) (by simp [authFields])) ha
  have hf : (write t.fee.fields).length ≤ u64Max :=
    Nat.le_trans (length_mem_write (tag := 2) (by simp [authFields])) ha
  have g1 : getMany 1 (authFields t.pubKey t.accSequence t.fee) = some [write (signerFields t.pubKey t.accSequence)] :=
    getMany_self (by simp [authFields, allWith])
  have g2 : getMsg 2 (authFields t.pubKey t.accSequence t.fee) = some (some t.fee.fields) :=
    getMsg_self (by simp [authFields, allWith]) (writable_of (tagOk_fee hr.gasLimit) hf)
  rw [nodeReads, fields_tx h]
  simp only [getRaw_body, getRaw_auth, getMany_sigs, readBody_write hb, fields_of (tagOk_auth _ _ _) ha, g1, g2,
    Option.bind_some, readEach, readSigner_write hr.sequence hs, readFee_fields hf, Option.map_some]

theorem nodeSignBytes_tx {t : TxRaw} (h : t.bytes.length ≤ u64Max) (c : Str) (n : Nat) :
    nodeSignBytes c n t.bytes = some (write (docFields t.body t.auth c n)) := by
  rw [nodeSignBytes, fields_tx h]
  simp only [getRaw_body, getRaw_auth]

/-! ### What is signed -/

theorem tagOk_doc (b a : ByteList) (c : Str) {n : Nat} (hn : n ≤ u64Max) : ∀ f ∈ docFields b a c n, TagOk f :=
  tagOk_append (tagOk_append (tagOk_append (tagOk_raw (by decide) (by decide) _) (tagOk_raw (by decide) (by decide) _))
    (tagOk_str (by decide) (by decide) _)) (tagOk_num (by decide) (by decide) hn)

/-- a sign doc, read -/
theorem fields_doc {b a : ByteList} {c : Str} {n : Nat} (hn : n ≤ u64Max) (h : (write (docFields b a c n)).length ≤ u64Max) :
    fields (write (docFields b a c n)) = some (docFields b a c n) := fields_of (tagOk_doc b a c hn) h

theorem doc_parts (b a : ByteList) (c : Str) (n : Nat) : getRaw 1 (docFields b a c n) = some b ∧
    getRaw 2 (docFields b a c n) = some a ∧ getStr 3 (docFields b a c n) = some c ∧ getNum 4 (docFields b a c n) = some n := by
  refine ⟨getRaw_self ?_, getRaw_self ?_, getStr_self ?_, getNum_self ?_⟩
  all_goals
    rw [docFields, allWith_append, allWith_append, allWith_append]
  · simp [allWith_raw_self, allWith_raw (tag := 1) (tag' := 2) (by decide), allWith_str (tag := 1) (tag' := 3) (by decide),
      allWith_num (tag := 1) (tag' := 4) (by decide)]
  · simp [allWith_raw_self, allWith_raw (tag := 2) (tag' := 1) (by decide), allWith_str (tag := 2) (tag' := 3) (by decide),
      allWith_num (tag := 2) (tag' := 4) (by decide)]
  · simp [allWith_str_self, allWith_raw (tag := 3) (tag' := 1) (by decide), allWith_raw (tag := 3) (tag' := 2) (by decide),
      allWith_num (tag := 3) (tag' := 4) (by decide)]
  · simp [allWith_num_self, allWith_raw (tag := 4) (tag' := 1) (by decide), allWith_raw (tag := 4) (tag' := 2) (by decide),
      allWith_str (tag := 4) (tag' := 3) (by decide)]

theorem doc_inj {b a b' a' : ByteList} {c c' : Str} {n n' : Nat} (hn : n ≤ u64Max) (hn' : n' ≤ u64Max)
    (h : (write (docFields b a c n)).length ≤ u64Max) (e : write (docFields b a c n) = write (docFields b' a' c' n')) :
    b = b' ∧ a = a' ∧ c = c' ∧ n = n' := by
  have e2 : docFields b a c n = docFields b' a' c' n' := by
    have h1 := fields_doc hn h
    rw [e, fields_doc hn' (e ▸ h)] at h1
    exact (Option.some.inj h1).symm
  obtain ⟨p1, p2, p3, p4⟩ := doc_parts b a c n
  obtain ⟨q1, q2, q3, q4⟩ := doc_parts b' a' c' n'
  rw [e2] at p1 p2 p3 p4
  rw [p1] at q1; rw [p2] at q2; rw [p3] at q3; rw [p4] at q4
  exact ⟨Option.some.inj q1, Option.some.inj q2, Option.some.inj q3, Option.some.inj q4⟩

theorem length_doc_body (b a : ByteList) (c : Str) (n : Nat) : b.length ≤ (write (docFields b a c n)).length :=
  length_raw_part (tag := 1) (fun _ hf => by simp only [docFields, List.mem_append]; exact .inl (.inl (.inl hf)))

theorem length_doc_auth (b a : ByteList) (c : Str) (n : Nat) : a.length ≤ (write (docFields b a c n)).length :=
  length_raw_part (tag := 2) (fun _ hf => by simp only [docFields, List.mem_append]; exact .inl (.inl (.inr hf)))

theorem key_inj {k k' : AccountKey} (h : (write k.any.fields).length ≤ u64Max) (e : k.any = k'.any) : k = k' := by
  have hlen : k.any.value.length ≤ u64Max := Nat.le_trans
    (length_raw_part (tag := 2) (fun _ hf => List.mem_append_right _ hf)) h
  have key : ∀ b b' : ByteList, (write (raw 1 b)).length ≤ u64Max → write (raw 1 b) = write (raw 1 b') → b = b' := by
    intro b b' hl hw
    have h1 := fields_of (tagOk_raw (by decide) (by decide) b) hl
    rw [hw, fields_of (tagOk_raw (by decide) (by decide) b') (hw ▸ hl)] at h1
    have h2 : getRaw 1 (raw 1 b) = some b := getRaw_self (allWith_raw_self _ _)
    have h3 : getRaw 1 (raw 1 b') = some b' := getRaw_self (allWith_raw_self _ _)
    rw [Option.some.inj h1, h2] at h3
    exact Option.some.inj h3
  cases k with
  | secp256k1 b =>
    cases k' with
    | secp256k1 b' => rw [key b b' hlen (congrArg AnyMsg.value e)]
    | ed25519 b' => exact absurd (congrArg AnyMsg.typeUrl e) (
        show "/cosmos.crypto.secp256k1.PubKey".toList ≠ "/cosmos.crypto.ed25519.PubKey".toList by decide)
  | ed25519 b =>
    cases k' with
    | ed25519 b' => rw [key b b' hlen (congrArg AnyMsg.value e)]
    | secp256k1 b' => exact absurd (congrArg AnyMsg.typeUrl e) (
        show "/cosmos.crypto.ed25519.PubKey".toList ≠ "/cosmos.crypto.secp256k1.PubKey".toList by decide)

theorem auth_inj {k k' : AccountKey} {n n' : Nat} {f f' : FeeMsg} (hn : n ≤ u64Max) (hn' : n' ≤ u64Max)
    (hf : f.gasLimit ≤ u64Max) (hf' : f'.gasLimit ≤ u64Max)
    (h : (write (authFields k n f)).length ≤ u64Max) (e : write (authFields k n f) = write (authFields k' n' f')) :
    k = k' ∧ n = n' ∧ f = f' := by
  have e2 : authFields k n f = authFields k' n' f' := by
    have h1 := fields_of (tagOk_auth k n f) h
    rw [e, fields_of (tagOk_auth k' n' f') (e ▸ h)] at h1
    exact (Option.some.inj h1).symm
  have hs : (write (signerFields k n)).length ≤ u64Max := Nat.le_trans (length_mem_write (tag := 1) (by simp [authFields])) h
  have hfl : (write f.fields).length ≤ u64Max := Nat.le_trans (length_mem_write (tag := 2) (by simp [authFields])) h
  rw [authFields, authFields] at e2
  simp only [List.cons.injEq, Prod.mk.injEq, Field.bytes.injEq, true_and, and_true] at e2
  have s1 := readSigner_write hn hs
  rw [e2.1, readSigner_write hn' (e2.1 ▸ hs)] at s1
  have s2 := Option.some.inj s1
  simp only [SignerView.mk.injEq, Option.some.injEq, true_and] at s2
  have f1 := fields_of (tagOk_fee hf) hfl
  rw [e2.2, fields_of (tagOk_fee hf') (e2.2 ▸ hfl)] at f1
  have f2 := readFee_fields hfl
  rw [← Option.some.inj f1, readFee_fields (e2.2 ▸ hfl)] at f2
  simp only [Option.some.injEq, Prod.mk.injEq, and_true] at f2
  refine ⟨(key_inj (Nat.le_trans (length_mem_write (tag := 1) (by simp [signerFields])) hs) s2.1.symm), s2.2.symm, ?_⟩
  cases f; cases f'
  simp only [FeeMsg.mk.injEq]
  exact ⟨f2.1.symm, f2.2.symm⟩

theorem body_inj {ms ms' : List AnyMsg} (h : (write (bodyFields ms)).length ≤ u64Max)
    (e : write (bodyFields ms) = write (bodyFields ms')) : ms = ms' := by
  have h1 := readBody_write h
  rw [e, readBody_write (e ▸ h)] at h1
  simp only [Option.some.injEq, Prod.mk.injEq, and_true] at h1
  exact h1.symm

theorem signBytes_inj {t t' : Tx} (ht : t.InRange) (ht' : t'.InRange) {c c' : Str} {n n' : Nat} (hn : n ≤ u64Max)
    (hn' : n' ≤ u64Max) (h : (t.signBytes c n).length ≤ u64Max) (e : t.signBytes c n = t'.signBytes c' n') :
    t = t' ∧ c = c' ∧ n = n' := by
  obtain ⟨e1, e2, e3, e4⟩ := doc_inj hn hn' h e
  have hb := Nat.le_trans (length_doc_body _ _ _ _) h
  have ha := Nat.le_trans (length_doc_auth _ _ _ _) h
  obtain ⟨k1, k2, k3⟩ := auth_inj ht.sequence ht'.sequence ht.gasLimit ht'.gasLimit ha e2
  refine ⟨?_, e3, e4⟩
  have hm := body_inj hb e1
  cases t; cases t'
  simp only at hm k1 k2 k3
  subst hm k1 k2 k3
  rfl

/-! ### Messages to contracts -/

theorem tagOk_exec (m : ExecuteMsg) : ∀ f ∈ str 1 m.sender ++ str 2 m.contract ++ raw 3 m.msg ++
    many 5 (m.funds.map (fun c => write c.fields)), TagOk f :=
  tagOk_append (tagOk_append (tagOk_append (tagOk_str (by decide) (by decide) _) (tagOk_str (by decide) (by decide) _))
    (tagOk_raw (by decide) (by decide) _)) (tagOk_many (by decide) (by decide) _)

/-- the fields of the same -/
def ExecuteMsg.fields (m : ExecuteMsg) : List (Nat × Field) :=
  str 1 m.sender ++ str 2 m.contract ++ raw 3 m.msg ++ many 5 (m.funds.map (fun c => write c.fields))

theorem exec_sender (m : ExecuteMsg) : getStr 1 m.fields = some m.sender := getStr_self (by
  rw [ExecuteMsg.fields, allWith_append, allWith_append, allWith_append, allWith_str_self, allWith_str (by decide),
    allWith_raw (by decide), allWith_many (by decide), List.append_nil, List.append_nil, List.append_nil])

theorem exec_contract (m : ExecuteMsg) : getStr 2 m.fields = some m.contract := getStr_self (by
  rw [ExecuteMsg.fields, allWith_append, allWith_append, allWith_append, allWith_str_self, allWith_str (by decide),
    allWith_raw (by decide), allWith_many (by decide), List.append_nil, List.append_nil, List.nil_append])

theorem exec_msg (m : ExecuteMsg) : getRaw 3 m.fields = some m.msg := getRaw_self (by
  rw [ExecuteMsg.fields, allWith_append, allWith_append, allWith_append, allWith_str (by decide), allWith_str (by decide),
    allWith_raw_self, allWith_many (by decide), List.append_nil, List.append_nil, List.nil_append])

theorem exec_funds (m : ExecuteMsg) : getMany 5 m.fields = some (m.funds.map (fun c => write c.fields)) := getMany_self (by
  rw [ExecuteMsg.fields, allWith_append, allWith_append, allWith_append, allWith_str (by decide), allWith_str (by decide),
    allWith_raw (by decide), allWith_many_self, List.append_nil, List.append_nil, List.nil_append])

theorem readExecute_any {m : ExecuteMsg} (h : m.any.value.length ≤ u64Max) : readExecute m.any = some m := by
  have hv : m.any.value = write m.fields := rfl
  have hc : readEach readCoin (m.funds.map (fun c => write c.fields)) = some m.funds :=
    readEach_map (fun c hc => readCoin_write (Nat.le_trans
      (length_many (tag := 5) (fun g hg => List.mem_append_right _ hg) _ (List.mem_map.mpr ⟨c, hc, rfl⟩)) (hv ▸ h)))
  have et : m.any.typeUrl = "/cosmwasm.wasm.v1.MsgExecuteContract".toList := rfl
  rw [readExecute, if_pos et, hv,
    show fields (write m.fields) = some m.fields from fields_of (tagOk_exec m) (hv ▸ h)]
  simp only [exec_sender, exec_contract, exec_msg, exec_funds, Option.bind_some, hc]

end Amp.Proto
