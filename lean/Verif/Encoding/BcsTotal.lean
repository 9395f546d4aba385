import Verif.Encoding.AbiTotal
import Verif.Encoding.Bcs

/-!
# When the BCS encoding does not fail: helper lemmas
-/

namespace Amp.Encoding.Bcs

open Amp.Multisig (Signature PublicKey Signer WorkerSet)
open Amp.Encoding.Abi (sum_le_const sum_le_sum sum_add_const showLen)

theorem le_sum {α : Type} {f : α → Nat} {l : List α} {a : α} (h : a ∈ l) : f a ≤ (l.map f).sum := by
  induction l with
  | nil => simp at h
  | cons x t ih =>
    simp only [List.map_cons, List.sum_cons]
    rcases List.mem_cons.mp h with rfl | h
    · omega
    · have := ih h
      omega

theorem uleb_length (k n : Nat) : (uleb k n).length ≤ k := by
  induction k generalizing n with
  | zero => simp [uleb]
  | succ k ih =>
    unfold uleb
    split
    · simp
    · simp only [List.length_cons]
      have := ih (n / 128)
      omega

theorem seqLen_total {n : Nat} (h : n ≤ maxSeqLen) : ∃ b, seqLen n = .ok b ∧ b.length ≤ 5 := by
  unfold seqLen
  rw [if_neg (by omega)]
  exact ⟨_, rfl, uleb_length 5 n⟩

theorem cat_cons {x : Except Err Bytes} {t : List (Except Err Bytes)} {a b : Bytes} (hx : x = .ok a)
    (ht : cat t = .ok b) : cat (x :: t) = .ok (a ++ b) := by
  unfold cat
  rw [hx, ht]

theorem cat_total {α : Type} {f : α → Except Err Bytes} {g : α → Nat} {l : List α}
    (h : ∀ a ∈ l, ∃ b, f a = .ok b ∧ b.length ≤ g a) :
    ∃ b, cat (l.map f) = .ok b ∧ b.length ≤ (l.map g).sum := by
  induction l with
  | nil => exact ⟨[], rfl, by simp⟩
  | cons a t ih =>
    obtain ⟨x, h1, h2⟩ := h a List.mem_cons_self
    obtain ⟨y, h3, h4⟩ := ih (fun z hz => h z (List.mem_cons_of_mem _ hz))
    exact ⟨_, cat_cons h1 h3, by simp only [List.length_append, List.map_cons, List.sum_cons]; omega⟩

theorem bytesB_total {x : Bytes} (h : x.length ≤ maxSeqLen) : ∃ b, bytesB x = .ok b ∧ b.length ≤ 5 + x.length := by
  obtain ⟨l, h1, h2⟩ := seqLen_total h
  exact ⟨_, cat_cons h1 (cat_cons rfl rfl), by simp only [List.length_append, List.length_nil]; omega⟩

theorem seqB_total {α : Type} {f : α → Except Err Bytes} {g : α → Nat} {l : List α} (hl : l.length ≤ maxSeqLen)
    (h : ∀ a ∈ l, ∃ b, f a = .ok b ∧ b.length ≤ g a) :
    ∃ b, seqB (l.map f) = .ok b ∧ b.length ≤ 5 + (l.map g).sum := by
  obtain ⟨x, h1, h2⟩ := seqLen_total hl
  obtain ⟨y, h3, h4⟩ := cat_total h
  refine ⟨_, cat_cons (by rw [List.length_map]; exact h1) (cat_cons h3 rfl), ?_⟩
  simp only [List.length_append, List.length_nil]
  omega

/-! ### Commands -/

theorem commandParams_total (chain src dst : Str) (hash a : Bytes) (hd : decodeHex (stripPrefix dst) = some a)
    (ha : a.length = 32)
    (hs : (utf8Bytes chain).length + (utf8Bytes src).length + hash.length + 47 ≤ maxSeqLen) :
    ∃ b, commandParams chain src dst hash = .ok b ∧
      b.length ≤ (utf8Bytes chain).length + (utf8Bytes src).length + hash.length + 47 := by
  obtain ⟨x, h1, h2⟩ := bytesB_total (x := utf8Bytes chain) (by omega)
  obtain ⟨y, h3, h4⟩ := bytesB_total (x := utf8Bytes src) (by omega)
  obtain ⟨z, h5, h6⟩ := bytesB_total (x := hash) (by omega)
  unfold commandParams
  rw [hd]
  simp only
  rw [if_pos ha, cat_cons h1 (cat_cons h3 (cat_cons rfl (cat_cons h5 rfl)))]
  refine ⟨_, rfl, ?_⟩
  simp only [List.length_append, List.length_nil]
  omega

theorem transfer_total (ws : WorkerSet) (hk : ∀ e ∈ ws.signers, e.2.pubKey.bytes.length ≤ 65)
    (hw : ∀ e ∈ ws.signers, e.2.weight ≤ u128Max) (ht : ws.threshold ≤ u128Max)
    (hs : ws.signers.length ≤ maxSeqLen) :
    ∃ b, transferOperatorshipParams ws = .ok b ∧ b.length ≤ 26 + 86 * ws.signers.length := by
  unfold transferOperatorshipParams
  simp only
  have hperm : (Std.sortByAddr (operatorsOf ws)).Perm (operatorsOf ws) := by
    rw [sortByAddr_eq]; exact sortBy_perm _ _
  have hlen : (Std.sortByAddr (operatorsOf ws)).length = ws.signers.length := by
    rw [hperm.length_eq]; exact List.length_map ..
  have hop : ∀ o ∈ Std.sortByAddr (operatorsOf ws), o.1.length ≤ 65 ∧ o.2 ≤ u128Max := by
    intro o ho
    obtain ⟨e, he, rfl⟩ := List.mem_map.mp (hperm.mem_iff.mp ho)
    exact ⟨hk e he, hw e he⟩
  obtain ⟨wts, hwts⟩ : ∃ r, mapE (fun o : Bytes × Nat => toU128 o.2) (Std.sortByAddr (operatorsOf ws)) = .ok r := by
    apply mapE_ok_of_forall
    intro o ho
    unfold toU128
    rw [if_pos (hop o ho).2]
    exact ⟨_, rfl⟩
  have hwl := mapE_length hwts
  have htt : toU128 ws.threshold = .ok ws.threshold := by unfold toU128; rw [if_pos ht]
  rw [hwts]
  simp only
  rw [htt]
  simp only
  obtain ⟨x, h1, h2⟩ := seqB_total (f := fun o : Bytes × Nat => bytesB o.1) (g := fun _ => 70)
    (l := Std.sortByAddr (operatorsOf ws)) (by omega) (by
      intro o ho
      have := (hop o ho).1
      obtain ⟨b, hb, hbl⟩ := bytesB_total (x := o.1) (by unfold maxSeqLen; omega)
      exact ⟨b, hb, by omega⟩)
  obtain ⟨y, h3, h4⟩ := seqB_total (f := fun w : Nat => (Except.ok (u128B w) : Except Err Bytes)) (g := fun _ => 16)
    (l := wts) (by omega) (by
      intro w _
      exact ⟨_, rfl, by unfold u128B; rw [le_length]⟩)
  rw [cat_cons h1 (cat_cons h3 (cat_cons rfl rfl))]
  refine ⟨_, rfl, ?_⟩
  have hu : (u128B ws.threshold).length = 16 := by unfold u128B; rw [le_length]
  have h5 := sum_le_const (f := fun _ : Bytes × Nat => 70) (l := Std.sortByAddr (operatorsOf ws)) (B := 70) (by simp)
  have h6 := sum_le_const (f := fun _ : Nat => 16) (l := wts) (B := 16) (by simp)
  simp only [List.length_append, List.length_nil]
  omega

/-! ### Batches -/

theorem encode_data_total (d : Data) (hc : d.destinationChainId ≤ u64Max) (hid : ∀ c ∈ d.commands, c.id.length = 32)
    (hs : 23 + 62 * d.commands.length + (d.commands.map (fun c => c.params.length)).sum ≤ maxSeqLen) :
    ∃ b, encode d = .ok b ∧
      b.length ≤ 23 + 62 * d.commands.length + (d.commands.map (fun c => c.params.length)).sum := by
  unfold encode
  have hcc : toU64 d.destinationChainId = .ok d.destinationChainId := by unfold toU64; rw [if_pos hc]
  rw [hcc]
  simp only
  obtain ⟨ids, hids⟩ : ∃ r, mapE (fun c : Command => makeCommandId c.id) d.commands = .ok r := by
    apply mapE_ok_of_forall
    intro c hc
    unfold makeCommandId
    rw [if_pos (hid c hc)]
    exact ⟨_, rfl⟩
  have hil := mapE_length hids
  have hi32 : ∀ i ∈ ids, i.length = 32 := by
    intro i hi
    obtain ⟨c, hc, h⟩ := mapE_mem_right hids hi
    unfold makeCommandId at h
    rw [if_pos (hid c hc)] at h
    simp only [Except.ok.injEq] at h
    rw [← h]
    exact hid c hc
  have hp : ∀ c ∈ d.commands, c.params.length ≤ (d.commands.map (fun c => c.params.length)).sum := by
    intro c hc
    exact le_sum (f := fun c : Command => c.params.length) hc
  rw [hids]
  simp only
  obtain ⟨x, h1, h2⟩ := seqB_total (f := (Except.ok : Bytes → Except Err Bytes)) (g := fun _ => 32)
    (l := ids) (by omega) (by
      intro i hi
      exact ⟨i, rfl, (hi32 i hi).le⟩)
  obtain ⟨y, h3, h4⟩ := seqB_total (f := fun c : Command => bytesB (utf8Bytes c.ty.show)) (g := fun _ => 25)
    (l := d.commands) (by omega) (by
      intro c _
      have := showLen c.ty
      obtain ⟨b, hb, hbl⟩ := bytesB_total (x := utf8Bytes c.ty.show) (by unfold maxSeqLen; omega)
      exact ⟨b, hb, by omega⟩)
  obtain ⟨z, h5, h6⟩ := seqB_total (f := fun c : Command => bytesB c.params) (g := fun c => 5 + c.params.length)
    (l := d.commands) (by omega) (by
      intro c hc
      have := hp c hc
      exact bytesB_total (by omega))
  rw [cat_cons rfl (cat_cons h1 (cat_cons h3 (cat_cons h5 rfl)))]
  refine ⟨_, rfl, ?_⟩
  have hu : (u64B d.destinationChainId).length = 8 := by unfold u64B; rw [le_length]
  have h7 := sum_le_const (f := fun _ : Bytes => 32) (l := ids) (B := 32) (by simp)
  have h8 := sum_le_const (f := fun _ : Command => 25) (l := d.commands) (B := 25) (by simp)
  have h9 := sum_add_const (f := fun c : Command => c.params.length) (l := d.commands) (B := 5)
  simp only [List.length_append, List.length_nil]
  omega

theorem digest_total (X : Ext) (d : Data) {b : Bytes} (h : encode d = .ok b) :
    ∃ g, msgDigest X d = .ok g ∧ g.length = 32 := by
  unfold msgDigest
  rw [h]
  exact ⟨_, rfl, X.keccak_length _⟩

theorem digest_ok (X : Ext) (d : Data) {g : Bytes} (h : msgDigest X d = .ok g) :
    g.length = 32 ∧ ∃ b, encode d = .ok b := by
  unfold msgDigest at h
  split at h
  · simp at h
  · rename_i b hb
    simp only [Except.ok.injEq] at h
    subst h
    exact ⟨X.keccak_length _, b, hb⟩

/-! ### Proofs -/

theorem proof_total (quorum : Nat) (signers : List (Signer × Option Signature)) (hq : quorum ≤ u128Max)
    (hk : ∀ e ∈ signers, e.1.pubKey.bytes.length ≤ 65) (hw : ∀ e ∈ signers, e.1.weight ≤ u128Max)
    (hsig : ∀ e ∈ signers, ∀ s, e.2 = some s → s.bytes.length ≤ 65) (hs : signers.length ≤ maxSeqLen) :
    ∃ b, encodeProof quorum signers = .ok b ∧ b.length ≤ 31 + 156 * signers.length := by
  unfold encodeProof
  simp only
  have hperm : (sortBy opLe (makeOperatorsWithSigs signers)).Perm (makeOperatorsWithSigs signers) := sortBy_perm _ _
  have hlen : (sortBy opLe (makeOperatorsWithSigs signers)).length = signers.length := by
    rw [hperm.length_eq]; exact List.length_map ..
  have hop : ∀ o ∈ sortBy opLe (makeOperatorsWithSigs signers), o.address.length ≤ 65 ∧ o.weight ≤ u128Max ∧
      ∀ s, o.signature = some s → s.bytes.length ≤ 65 := by
    intro o ho
    obtain ⟨e, he, rfl⟩ := List.mem_map.mp (hperm.mem_iff.mp ho)
    exact ⟨hk e he, hw e he, hsig e he⟩
  obtain ⟨wts, hwts⟩ : ∃ r, mapE (fun o : Operator => toU128 o.weight) (sortBy opLe (makeOperatorsWithSigs signers)) =
      .ok r := by
    apply mapE_ok_of_forall
    intro o ho
    unfold toU128
    rw [if_pos (hop o ho).2.1]
    exact ⟨_, rfl⟩
  have hwl := mapE_length hwts
  have htt : toU128 quorum = .ok quorum := by unfold toU128; rw [if_pos hq]
  rw [hwts]
  simp only
  rw [htt]
  simp only
  obtain ⟨x, h1, h2⟩ := seqB_total (f := fun o : Operator => bytesB o.address) (g := fun _ => 70)
    (l := sortBy opLe (makeOperatorsWithSigs signers)) (by omega) (by
      intro o ho
      have := (hop o ho).1
      obtain ⟨b, hb, hbl⟩ := bytesB_total (x := o.address) (by unfold maxSeqLen; omega)
      exact ⟨b, hb, by omega⟩)
  obtain ⟨y, h3, h4⟩ := seqB_total (f := fun w : Nat => (Except.ok (u128B w) : Except Err Bytes)) (g := fun _ => 16)
    (l := wts) (by omega) (by
      intro w _
      exact ⟨_, rfl, by unfold u128B; rw [le_length]⟩)
  have hfl := List.length_filterMap_le (fun o : Operator => o.signature.map Signature.bytes)
    (sortBy opLe (makeOperatorsWithSigs signers))
  obtain ⟨z, h5, h6⟩ := seqB_total (f := bytesB) (g := fun _ => 70)
    (l := (sortBy opLe (makeOperatorsWithSigs signers)).filterMap (fun o => o.signature.map Signature.bytes))
    (by omega) (by
      intro s hs
      obtain ⟨o, ho, h⟩ := List.mem_filterMap.mp hs
      rw [Option.map_eq_some_iff] at h
      obtain ⟨s', hs', rfl⟩ := h
      have := (hop o ho).2.2 s' hs'
      obtain ⟨b, hb, hbl⟩ := bytesB_total (x := s'.bytes) (by unfold maxSeqLen; omega)
      exact ⟨b, hb, by omega⟩)
  rw [cat_cons h1 (cat_cons h3 (cat_cons rfl (cat_cons h5 rfl)))]
  refine ⟨_, rfl, ?_⟩
  have hu : (u128B quorum).length = 16 := by unfold u128B; rw [le_length]
  have h7 := sum_le_const (f := fun _ : Operator => 70) (l := sortBy opLe (makeOperatorsWithSigs signers)) (B := 70)
    (by simp)
  have h8 := sum_le_const (f := fun _ : Nat => 16) (l := wts) (B := 16) (by simp)
  have h9 := sum_le_const (f := fun _ : Bytes => 70)
    (l := (sortBy opLe (makeOperatorsWithSigs signers)).filterMap (fun o => o.signature.map Signature.bytes))
    (B := 70) (by simp)
  simp only [List.length_append, List.length_nil]
  omega

theorem recoverable_length (X : Ext) (digest : Bytes) (signers : List (Signer × Option Signature))
    (hsig : ∀ e ∈ signers, ∀ s, e.2 = some s → s.bytes.length ≤ 65 ∧ ∀ b, s = .ecdsa b → b.length ≤ 64) :
    ∀ e ∈ recoverableSigners X digest signers, ∀ s, e.2 = some s → s.bytes.length ≤ 65 := by
  intro e he s hs
  obtain ⟨x, hx, rfl⟩ := List.mem_map.mp he
  obtain ⟨sg, o⟩ := x
  cases o with
  | none => simp at hs
  | some s0 =>
    obtain ⟨h1, h2⟩ := hsig _ hx s0 rfl
    cases s0 with
    | ecdsa b =>
      simp only at hs
      split at hs
      · simp at hs
      · simp only [Option.some.injEq] at hs
        subst hs
        have := h2 b rfl
        simp only [Signature.bytes, List.length_append, List.length_cons, List.length_nil]
        omega
    | _ => simp only [Option.some.injEq] at hs; subst hs; exact h1

theorem executeData_total (X : Ext) (d : Data) (quorum : Nat) (signers : List (Signer × Option Signature)) {b : Bytes}
    (hb : encode d = .ok b) (hq : quorum ≤ u128Max) (hk : ∀ e ∈ signers, e.1.pubKey.bytes.length ≤ 65)
    (hw : ∀ e ∈ signers, e.1.weight ≤ u128Max)
    (hsig : ∀ e ∈ signers, ∀ s, e.2 = some s → s.bytes.length ≤ 65 ∧ ∀ b, s = .ecdsa b → b.length ≤ 64)
    (hs : b.length ≤ maxSeqLen) (hn : 31 + 156 * signers.length ≤ maxSeqLen) :
    ∃ x, encodeExecuteData X d quorum signers = .ok x := by
  obtain ⟨g, hg, _⟩ := digest_total X d hb
  have hlen : (recoverableSigners X g signers).length = signers.length := List.length_map ..
  have hmem : ∀ e ∈ recoverableSigners X g signers, ∃ x ∈ signers, e.1 = x.1 := by
    intro e he
    obtain ⟨x, hx, rfl⟩ := List.mem_map.mp he
    exact ⟨x, hx, rfl⟩
  obtain ⟨p, hp, hpl⟩ := proof_total quorum (recoverableSigners X g signers) hq
    (by intro e he; obtain ⟨x, hx, h⟩ := hmem e he; rw [h]; exact hk x hx)
    (by intro e he; obtain ⟨x, hx, h⟩ := hmem e he; rw [h]; exact hw x hx)
    (recoverable_length X g signers hsig) (by rw [hlen]; omega)
  rw [hlen] at hpl
  obtain ⟨x, hx, _⟩ := bytesB_total (x := b) hs
  obtain ⟨y, hy, _⟩ := bytesB_total (x := p) (by omega)
  unfold encodeExecuteData
  simp only [hg, hb, hp]
  exact ⟨_, cat_cons hx (cat_cons hy rfl)⟩

end Amp.Encoding.Bcs
