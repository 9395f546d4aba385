import Verif.Encoding.AbiLemmas
import Verif.Encoding.Sort

/-!
# When the ABI encoding does not fail: helper lemmas
-/

namespace Amp.Encoding.Abi

open Amp.Multisig (Signature PublicKey Signer WorkerSet)

/-- bytes a value takes -/
def Mediate.size (m : Mediate) : Nat := m.headLen + m.tailLen

theorem headTail_length (ms : List Mediate) : (headTail ms).length = (ms.map Mediate.size).sum := by
  unfold headTail
  rw [List.length_append, heads_length, tails_length]
  unfold hl tl
  induction ms with
  | nil => rfl
  | cons m t ih => simp only [List.map_cons, List.sum_cons, Mediate.size] at ih ⊢; omega

theorem pad32_le (b : Bytes) : (pad32 b).length ≤ b.length + 31 := by
  unfold pad32
  rw [List.length_append, List.length_replicate]
  omega

theorem size_bytes (b : Bytes) : (Elem.bytes b).mediate.size ≤ 95 + b.length := by
  have := pad32_le b
  simp only [Elem.mediate, Mediate.size, Mediate.headLen, Mediate.tailLen, List.length_append, word_length]
  omega

theorem size_fixed (b : Bytes) : (Elem.fixedBytes b).mediate.size ≤ 31 + b.length := by
  have := pad32_le b
  simp only [Elem.mediate, Mediate.size, Mediate.headLen, Mediate.tailLen]
  omega

theorem size_uint (n : Nat) : (Elem.uint n).mediate.size = 32 := by
  simp [Elem.mediate, Mediate.size, Mediate.headLen, Mediate.tailLen, word_length]

theorem size_address (b : Bytes) : (Elem.address b).mediate.size = 12 + b.length := by
  simp only [Elem.mediate, Mediate.size, Mediate.headLen, Mediate.tailLen, List.length_append, List.length_replicate]
  omega

theorem size_array (es : List Elem) :
    (Token.array es).mediate.size = 64 + (es.map (fun e => e.mediate.size)).sum := by
  have h : (Token.array es).mediate.size = 32 + (word es.length ++ headTail (es.map Elem.mediate)).length := rfl
  have h2 : ((es.map Elem.mediate).map Mediate.size).sum = (es.map (fun e => e.mediate.size)).sum := by
    rw [List.map_map]; rfl
  rw [h, List.length_append, word_length, headTail_length, h2]
  omega

theorem sum_le_const {α : Type} {f : α → Nat} {l : List α} {B : Nat} (h : ∀ a ∈ l, f a ≤ B) :
    (l.map f).sum ≤ B * l.length := by
  induction l with
  | nil => simp
  | cons a t ih =>
    have h1 := h a List.mem_cons_self
    have h2 := ih (fun x hx => h x (List.mem_cons_of_mem _ hx))
    simp only [List.map_cons, List.sum_cons, List.length_cons, Nat.mul_add, Nat.mul_one]
    omega

theorem sum_le_sum {α : Type} {f g : α → Nat} {l : List α} (h : ∀ a ∈ l, f a ≤ g a) :
    (l.map f).sum ≤ (l.map g).sum := by
  induction l with
  | nil => simp
  | cons a t ih =>
    have h1 := h a List.mem_cons_self
    have h2 := ih (fun x hx => h x (List.mem_cons_of_mem _ hx))
    simp only [List.map_cons, List.sum_cons]
    omega

theorem sum_add_const {α : Type} {f : α → Nat} {l : List α} {B : Nat} :
    (l.map (fun a => B + f a)).sum = B * l.length + (l.map f).sum := by
  induction l with
  | nil => simp
  | cons a t ih =>
    simp only [List.map_cons, List.sum_cons, List.length_cons, ih, Nat.mul_add, Nat.mul_one]
    omega

theorem encode_total {ts : List Token} {B : Nat} (h : (ts.map (fun t => t.mediate.size)).sum ≤ B)
    (hB : B < 2 ^ 32) : ∃ b, ethabiEncode ts = .ok b ∧ b.length ≤ B := by
  have hl : (headTail (ts.map Token.mediate)).length ≤ B := by
    rw [headTail_length, List.map_map]
    exact h
  unfold ethabiEncode
  rw [if_pos (by omega)]
  exact ⟨_, rfl, hl⟩

/-! ### Commands -/

theorem commandParams_total (X : Ext) (chain src dst : Str) (hash a : Bytes) (hd : X.parseH160 dst = some a)
    (hs : (utf8Bytes chain).length + (utf8Bytes src).length + hash.length + 317 < 2 ^ 32) :
    ∃ b, commandParams X chain src dst hash = .ok b ∧
      b.length ≤ (utf8Bytes chain).length + (utf8Bytes src).length + hash.length + 317 := by
  unfold commandParams
  rw [hd]
  refine encode_total ?_ hs
  have h1 := size_bytes (utf8Bytes chain)
  have h2 := size_bytes (utf8Bytes src)
  have h3 := size_address a
  have h4 := size_fixed hash
  have h5 := size_fixed []
  have h6 := size_uint 0
  have h7 := X.parseH160_length _ _ hd
  simp only [List.map_cons, List.map_nil, List.sum_cons, List.sum_nil, Token.mediate, strTok]
  simp only [List.length_nil] at h5
  omega

theorem evmAddress_total (X : Ext) (k : Bytes) (h : (X.uncompress k).isSome) :
    ∃ a, evmAddress X k = .ok a ∧ a.length = 20 := by
  unfold evmAddress
  obtain ⟨p, hp⟩ := Option.isSome_iff_exists.mp h
  rw [hp]
  exact ⟨_, rfl, by rw [List.length_drop, X.keccak_length]⟩

theorem transfer_total (X : Ext) (ws : WorkerSet) (hk : ∀ e ∈ ws.signers, (X.uncompress e.2.pubKey.bytes).isSome)
    (hs : 160 + 64 * ws.signers.length < 2 ^ 32) :
    ∃ b, transferOperatorshipParams X ws = .ok b ∧ b.length ≤ 160 + 64 * ws.signers.length := by
  unfold transferOperatorshipParams
  obtain ⟨l, hl⟩ : ∃ l, operatorsOf X ws = .ok l := by
    unfold operatorsOf
    apply mapE_ok_of_forall
    intro e he
    obtain ⟨a, ha, _⟩ := evmAddress_total X _ (hk e he)
    exact ⟨_, by rw [ha]⟩
  have hlen : l.length = ws.signers.length := mapE_length hl
  have haddr : ∀ o ∈ l, o.1.length = 20 := by
    intro o ho
    obtain ⟨e, he, h⟩ := mapE_mem_right hl ho
    obtain ⟨a, ha, h20⟩ := evmAddress_total X _ (hk e he)
    rw [ha] at h
    simp only [Except.ok.injEq] at h
    subst h
    exact h20
  rw [hl]
  simp only
  have hperm : (Std.sortByAddr l).Perm l := by rw [sortByAddr_eq]; exact sortBy_perm _ _
  obtain ⟨as, has⟩ : ∃ as, mapE (fun o : Bytes × Nat => addressTok o.1) (Std.sortByAddr l) = .ok as := by
    apply mapE_ok_of_forall
    intro o ho
    unfold addressTok
    rw [if_pos (haddr o (hperm.mem_iff.mp ho))]
    exact ⟨_, rfl⟩
  have hal : as.length = l.length := by rw [mapE_length has, hperm.length_eq]
  have hsz : ∀ e ∈ as, e.mediate.size ≤ 32 := by
    intro e he
    obtain ⟨o, ho, h⟩ := mapE_mem_right has he
    unfold addressTok at h
    have h20 := haddr o (hperm.mem_iff.mp ho)
    rw [if_pos h20] at h
    simp only [Except.ok.injEq] at h
    subst h
    rw [size_address, h20]
  rw [has]
  simp only
  refine encode_total ?_ hs
  have h1 := size_array as
  have h2 := size_array ((Std.sortByAddr l).map (fun o => Elem.uint o.2))
  have h3 := sum_le_const hsz
  have h4 : (((Std.sortByAddr l).map (fun o => Elem.uint o.2)).map (fun e => e.mediate.size)).sum ≤
      32 * ((Std.sortByAddr l).map (fun o => Elem.uint o.2)).length := by
    apply sum_le_const
    intro e he
    obtain ⟨o, _, rfl⟩ := List.mem_map.mp he
    exact (size_uint _).le
  rw [List.length_map, hperm.length_eq] at h4
  have h5 := size_uint ws.threshold
  simp only [List.map_cons, List.map_nil, List.sum_cons, List.sum_nil]
  have h6 : (Token.elem (.uint ws.threshold)).mediate.size = 32 := h5
  omega

/-! ### Batches -/

theorem showLen (t : CommandType) : (utf8Bytes t.show).length ≤ 20 := by cases t <;> decide

theorem encode_data_total (d : Data) (hid : ∀ c ∈ d.commands, c.id.length = 32)
    (hs : 224 + 336 * d.commands.length + (d.commands.map (fun c => c.params.length)).sum < 2 ^ 32) :
    ∃ b, encode d = .ok b ∧
      b.length ≤ 224 + 336 * d.commands.length + (d.commands.map (fun c => c.params.length)).sum := by
  unfold encode
  refine encode_total ?_ hs
  have h1 := size_array (d.commands.map (fun c => Elem.fixedBytes c.id))
  have h2 := size_array (d.commands.map (fun c => strTok c.ty.show))
  have h3 := size_array (d.commands.map (fun c => Elem.bytes c.params))
  have h4 : ((d.commands.map (fun c => Elem.fixedBytes c.id)).map (fun e => e.mediate.size)).sum ≤
      63 * d.commands.length := by
    rw [List.map_map]
    apply sum_le_const
    intro c hc
    have := size_fixed c.id
    have := hid c hc
    simp only [Function.comp_apply]
    omega
  have h5 : ((d.commands.map (fun c => strTok c.ty.show)).map (fun e => e.mediate.size)).sum ≤
      115 * d.commands.length := by
    rw [List.map_map]
    apply sum_le_const
    intro c _
    have := size_bytes (utf8Bytes c.ty.show)
    have := showLen c.ty
    simp only [Function.comp_apply, strTok]
    omega
  have h6 : ((d.commands.map (fun c => Elem.bytes c.params)).map (fun e => e.mediate.size)).sum ≤
      95 * d.commands.length + (d.commands.map (fun c => c.params.length)).sum := by
    rw [List.map_map, ← sum_add_const]
    apply sum_le_sum
    intro c _
    exact size_bytes c.params
  have h7 : (Token.elem (.uint d.destinationChainId)).mediate.size = 32 := size_uint _
  simp only [List.map_cons, List.map_nil, List.sum_cons, List.sum_nil]
  omega

theorem digest_total (X : Ext) (d : Data) {b : Bytes} (h : encode d = .ok b) :
    ∃ g, msgDigest X d = .ok g ∧ g.length = 32 := by
  unfold msgDigest
  rw [h]
  exact ⟨_, rfl, X.keccak_length _⟩

theorem digest_ok (X : Ext) (d : Data) {g : Bytes} (h : msgDigest X d = .ok g) :
    g.length = 32 ∧ ∃ b, encode d = .ok b := by
  unfold msgDigest at h
  split at h
  · simp at h
  · rename_i b hb
    simp only [Except.ok.injEq] at h
    subst h
    exact ⟨X.keccak_length _, b, hb⟩

/-! ### Proofs -/

theorem proof_total (X : Ext) (quorum : Nat) (signers : List (Signer × Option Signature))
    (hk : ∀ e ∈ signers, (X.uncompress e.1.pubKey.bytes).isSome)
    (hsig : ∀ e ∈ signers, ∀ s, e.2 = some s → s.bytes.length ≤ 65)
    (hs : 224 + 224 * signers.length < 2 ^ 32) :
    ∃ b, encodeProof X quorum signers = .ok b ∧ b.length ≤ 224 + 224 * signers.length := by
  unfold encodeProof
  obtain ⟨l, hl⟩ : ∃ l, makeOperatorsWithSigs X signers = .ok l := by
    unfold makeOperatorsWithSigs
    apply mapE_ok_of_forall
    intro e he
    obtain ⟨a, ha, _⟩ := evmAddress_total X _ (hk e he)
    exact ⟨_, by rw [ha]⟩
  have hlen : l.length = signers.length := mapE_length hl
  have hop : ∀ o ∈ l, o.address.length = 20 ∧ ∀ s, o.signature = some s → s.bytes.length ≤ 65 := by
    intro o ho
    obtain ⟨e, he, h⟩ := mapE_mem_right hl ho
    obtain ⟨a, ha, h20⟩ := evmAddress_total X _ (hk e he)
    rw [ha] at h
    simp only [Except.ok.injEq] at h
    subst h
    exact ⟨h20, hsig e he⟩
  rw [hl]
  simp only
  have hperm : (sortBy opLe l).Perm l := sortBy_perm _ _
  obtain ⟨as, has⟩ : ∃ as, mapE (fun o : Operator => addressTok o.address) (sortBy opLe l) = .ok as := by
    apply mapE_ok_of_forall
    intro o ho
    unfold addressTok
    rw [if_pos (hop o (hperm.mem_iff.mp ho)).1]
    exact ⟨_, rfl⟩
  have hal : as.length = l.length := by rw [mapE_length has, hperm.length_eq]
  have hsz : ∀ e ∈ as, e.mediate.size ≤ 32 := by
    intro e he
    obtain ⟨o, ho, h⟩ := mapE_mem_right has he
    unfold addressTok at h
    have h20 := (hop o (hperm.mem_iff.mp ho)).1
    rw [if_pos h20] at h
    simp only [Except.ok.injEq] at h
    subst h
    rw [size_address, h20]
  rw [has]
  simp only
  refine encode_total ?_ hs
  have h1 := size_array as
  have h2 := size_array ((sortBy opLe l).map (fun o => Elem.uint o.weight))
  have h3 := sum_le_const hsz
  have h4 : (((sortBy opLe l).map (fun o => Elem.uint o.weight)).map (fun e => e.mediate.size)).sum ≤
      32 * l.length := by
    rw [List.map_map, ← hperm.length_eq]
    apply sum_le_const
    intro o _
    exact (size_uint _).le
  have h5 : (Token.elem (.uint quorum)).mediate.size = 32 := size_uint _
  have h6 := size_array ((sortBy opLe l).filterMap (fun o => o.signature.map (fun s => Elem.bytes s.bytes)))
  have h7 : (((sortBy opLe l).filterMap (fun o => o.signature.map (fun s => Elem.bytes s.bytes))).map
      (fun e => e.mediate.size)).sum ≤ 160 * l.length := by
    refine (sum_le_const (B := 160) ?_).trans ?_
    · intro e he
      obtain ⟨o, ho, h⟩ := List.mem_filterMap.mp he
      rw [Option.map_eq_some_iff] at h
      obtain ⟨s, hs, rfl⟩ := h
      have := (hop o (hperm.mem_iff.mp ho)).2 s hs
      have := size_bytes s.bytes
      omega
    · apply Nat.mul_le_mul_left
      rw [← hperm.length_eq]
      exact List.length_filterMap_le _ _
  simp only [List.map_cons, List.map_nil, List.sum_cons, List.sum_nil]
  omega

theorem recoverable_length (X : Ext) (digest : Bytes) (f : Nat → Nat) (signers : List (Signer × Option Signature))
    (hsig : ∀ e ∈ signers, ∀ s, e.2 = some s → s.bytes.length ≤ 65 ∧ ∀ b, s = .ecdsa b → b.length ≤ 64) :
    ∀ e ∈ recoverableSigners X digest f signers, ∀ s, e.2 = some s → s.bytes.length ≤ 65 := by
  intro e he s hs
  obtain ⟨x, hx, rfl⟩ := List.mem_map.mp he
  obtain ⟨sg, o⟩ := x
  cases o with
  | none => simp at hs
  | some s0 =>
    obtain ⟨h1, h2⟩ := hsig _ hx s0 rfl
    cases s0 with
    | ecdsa b =>
      simp only [toRecoverable] at hs
      split at hs
      · simp at hs
      · simp only [Option.some.injEq] at hs
        subst hs
        have := h2 b rfl
        simp only [Signature.bytes, List.length_append, List.length_cons, List.length_nil]
        omega
    | _ => simp only [Option.some.injEq] at hs; subst hs; exact h1

theorem executeData_total (X : Ext) (d : Data) (quorum : Nat) (signers : List (Signer × Option Signature)) {b : Bytes}
    (hb : encode d = .ok b) (hk : ∀ e ∈ signers, (X.uncompress e.1.pubKey.bytes).isSome)
    (hsig : ∀ e ∈ signers, ∀ s, e.2 = some s → s.bytes.length ≤ 65 ∧ ∀ b, s = .ecdsa b → b.length ≤ 64)
    (hs : 600 + b.length + 224 * signers.length < 2 ^ 32) :
    ∃ x, encodeExecuteData X d quorum signers = .ok x := by
  obtain ⟨g, hg, _⟩ := digest_total X d hb
  have hlen : (recoverableSigners X g add27 signers).length = signers.length := List.length_map ..
  obtain ⟨p, hp, hpl⟩ := proof_total X quorum (recoverableSigners X g add27 signers)
    (by
      intro e he
      obtain ⟨x, hx, rfl⟩ := List.mem_map.mp he
      exact hk x hx) (recoverable_length X g add27 signers hsig) (by rw [hlen]; omega)
  rw [hlen] at hpl
  have h1 := size_bytes b
  have h2 := size_bytes p
  obtain ⟨q, hq, hql⟩ := encode_total (ts := [.elem (.bytes b), .elem (.bytes p)])
    (B := 414 + b.length + 224 * signers.length)
    (by simp only [List.map_cons, List.map_nil, List.sum_cons, List.sum_nil, Token.mediate]; omega) (by omega)
  have h3 := size_bytes q
  obtain ⟨r, hr, _⟩ := encode_total (ts := [.elem (.bytes q)]) (B := 509 + b.length + 224 * signers.length)
    (by simp only [List.map_cons, List.map_nil, List.sum_cons, List.sum_nil, Token.mediate]; omega) (by omega)
  unfold encodeExecuteData
  simp only [hg, hb, hp, hq, hr]
  exact ⟨_, rfl⟩

end Amp.Encoding.Abi
