import Verif.Wire.HashSpec
import Verif.Wire.MsgProps
import Verif.Wire.StoreTyped
import Verif.Wire.QueryProps

/-!
# C97: ids stand for what they were made of
-/

namespace Amp.Wire

open Amp.Encoding (Bytes be ofBE ofBE_be be_length utf8Bytes_inj)
open Amp.Router (Message)
open Amp.Multisig (WorkerSet)
open Amp.Chain (Params Setup Entry SetsDistinctAt)

variable {T : Texts} {P : Params}

/-! ### Helper lemmas -/

theorem ofBE_append (b : Bytes) (x : Nat) : ofBE (b ++ [x]) = 256 * ofBE b + x := by
  simp [ofBE, List.foldl_append]

theorem ofBE_inj : ∀ {a b : Bytes}, a.length = b.length → IsBytes a → IsBytes b → ofBE a = ofBE b → a = b := by
  intro a
  induction a using List.reverseRecOn with
  | nil => intro b hl _ _ _; exact (List.length_eq_zero_iff.mp hl.symm).symm
  | append_singleton a x ih =>
    intro b hl ha hb h
    induction b using List.reverseRecOn with
    | nil => simp at hl
    | append_singleton b y _ =>
      rw [ofBE_append, ofBE_append] at h
      have hx : x < 256 := ha x (by simp)
      have hy : y < 256 := hb y (by simp)
      have h1 : ofBE a = ofBE b := by omega
      have h2 : x = y := by omega
      have := ih (by simpa using hl) (fun z hz => ha z (by simp [hz])) (fun z hz => hb z (by simp [hz])) h1
      rw [this, h2]

theorem digest_inj (h : Hashed T P) {a b : Bytes} (e : ofBE (P.X.keccak a) = ofBE (P.X.keccak b)) :
    P.X.keccak a = P.X.keccak b :=
  ofBE_inj (by rw [P.X.keccak_length, P.X.keccak_length]) (h.bytes a) (h.bytes b) e

theorem same_or {a b : Bytes} (e : P.X.keccak a = P.X.keccak b) : a = b ∨ Collide P a b := by
  by_cases h : a = b
  · exact Or.inl h
  · exact Or.inr ⟨h, e⟩

theorem render_inj {j j' : Json} (h : j.Fits 128) (h' : j'.Fits 128) (e : utf8Bytes j.render = utf8Bytes j'.render) : j = j' := by
  have h1 := fromStr_render (fun _ => true) h
  rw [utf8Bytes_inj e, fromStr_render (fun _ => true) h'] at h1
  exact (Option.some.inj h1).symm

theorem json_toRaw (T : Texts) (ws : WorkerSet) : jsonWorkerSetFull T ws = jsonRawSet T (Prover.toRaw ws) := by
  unfold jsonWorkerSetFull jsonRawSet Prover.toRaw
  rw [List.map_map]
  have : (fun e : Addr × Multisig.Signer => (T.text e.1, jsonFullSigner T e.2)) =
      ((fun e => (T.text e.1, jsonSigner T e.2)) ∘
        fun e : Addr × Multisig.Signer => (e.1, ⟨e.2.address, e.2.weight, e.2.pubKey.keyType, e.2.pubKey.bytes⟩)) := by
    funext e
    obtain ⟨a, ad, w, k⟩ := e
    cases k <;> rfl
  rw [this]

theorem toRaw_inj {ws ws' : WorkerSet} (h : Prover.toRaw ws = Prover.toRaw ws') : ws = ws' := by
  obtain ⟨s, t, c⟩ := ws
  obtain ⟨s', t', c'⟩ := ws'
  unfold Prover.toRaw at h
  simp only [Multisig.RawWorkerSet.mk.injEq] at h
  obtain ⟨h1, rfl, rfl⟩ := h
  have : s = s' := by
    refine List.map_injective_iff.mpr ?_ h1
    rintro ⟨a, ad, w, k⟩ ⟨a', ad', w', k'⟩ e
    simp only [Prod.mk.injEq, Multisig.RawSigner.mk.injEq] at e
    obtain ⟨rfl, rfl, rfl, e1, e2⟩ := e
    cases k <;> cases k' <;> simp_all [Multisig.PublicKey.keyType, Multisig.PublicKey.bytes]
  rw [this]

theorem typed_toRaw {ws : WorkerSet} (h : FullSetTyped ws) : SetTyped (Prover.toRaw ws) := by
  refine ⟨fun e he => ?_, h.threshold, h.createdAt⟩
  obtain ⟨x, hx, rfl⟩ := List.mem_map.mp he
  obtain ⟨hw, hk⟩ := h.signers x hx
  refine ⟨hw, ?_⟩
  revert hk
  dsimp only
  cases x.2.pubKey <;> exact fun hk => hk.1

theorem setBytes_inj (hT : T.Faithful) {ws ws' : WorkerSet} (h : FullSetTyped ws) (h' : FullSetTyped ws')
    (e : setBytes T ws = setBytes T ws') : ws = ws' := by
  unfold setBytes at e
  rw [json_toRaw, json_toRaw] at e
  have hj := render_inj (fits_rawSet (typed_toRaw h).createdAt (by omega)) (fits_rawSet (typed_toRaw h').createdAt (by omega)) e
  have h1 := asRawSet_json hT (typed_toRaw h)
  rw [hj, asRawSet_json hT (typed_toRaw h')] at h1
  exact toRaw_inj (Option.some.inj h1).symm

theorem operatorsBytes_inj {o o' : Std.Operators} (h : OperatorsFit o) (h' : OperatorsFit o')
    (e : operatorsBytes o = operatorsBytes o') : o = o' := by
  unfold operatorsBytes at e
  obtain ⟨e1, e2⟩ := List.append_inj' e (by rw [be_length, be_length])
  have hf : ∀ o : Std.Operators, (Json.arr (o.weights.map jsonOperator)).Fits 128 := fun o =>
    fits_arr (fun p _ => fits_operator p _ (by omega)) (by omega)
  have hj := render_inj (hf o) (hf o') e1
  have hw : ∀ {o : Std.Operators}, OperatorsFit o →
      asVec (asPair asHex (asUint u256Max)) (.arr (o.weights.map jsonOperator)) = some o.weights := fun h =>
    asVec_map (fun p hp => asPair_some (asHex_jsonHex (h.bytes p hp)) (asUint_jsonUint (h.weights p hp)))
  have h1 := hw h
  rw [hj, hw h'] at h1
  have ht : o.threshold = o'.threshold := by
    have k : ∀ {n}, n ≤ u256Max → n < 256 ^ 32 := fun hn => Nat.lt_of_le_of_lt hn (by decide)
    have h3 := ofBE_be (k h.threshold)
    rw [e2, ofBE_be (k h'.threshold)] at h3
    exact h3.symm
  obtain ⟨w, t⟩ := o
  obtain ⟨w', t'⟩ := o'
  cases ht
  cases Option.some.inj h1
  rfl

theorem decode_full {r : Multisig.RawWorkerSet} {ws : WorkerSet} (h : r.decode = .ok ws) (hr : SetTyped r) :
    FullSetTyped ws := by
  obtain ⟨h1, h2⟩ := decode_typed h hr
  refine ⟨h2, h1, ?_⟩
  unfold Multisig.RawWorkerSet.decode at h
  split at h
  · simp at h
  split at h
  · simp at h
  simp only [Except.ok.injEq] at h
  subst h
  exact hr.createdAt

/-! ### C97 -/

/-- C97: worker sets with the same id are the same, in every signer, weight, key, threshold and block height, unless two
different byte strings have the same Keccak-256 hash. -/
theorem C97_worker_set (hT : T.Faithful) (hH : Hashed T P) (ws ws' : WorkerSet) (h : FullSetTyped ws) (h' : FullSetTyped ws')
    (e : Prover.workerSetId P.X ws = Prover.workerSetId P.X ws') :
    ws = ws' ∨ Collide P (setBytes T ws) (setBytes T ws') := by
  have e := encodeHex_inj (P.X.wsHash_bytes ws) (P.X.wsHash_bytes ws') e
  rw [hH.workerSet, hH.workerSet] at e
  exact (same_or e).imp_left (setBytes_inj hT h h')

/-- C97: the same for the operators that a verifier confirms: their addresses, weights, order and threshold. -/
theorem C97_operators (hH : Hashed T P) (o o' : Std.Operators) (h : OperatorsFit o) (h' : OperatorsFit o')
    (e : P.H.ops o = P.H.ops o') : o = o' ∨ Collide P (operatorsBytes o) (operatorsBytes o') := by
  rw [hH.operators, hH.operators] at e
  exact (same_or (digest_inj hH e)).imp_left (operatorsBytes_inj h h')

/-- C97: messages with the same hash have the same payload hash, and their id, source address, destination chain and
destination address written one after the other are the same text.  (The parts may differ, see C14.) -/
theorem C97_message (hH : Hashed T P) (m m' : Message) (h : m.payloadHash.length = 32) (h' : m'.payloadHash.length = 32)
    (e : m.hash P.H.msg = m'.hash P.H.msg) :
    (m.payloadHash = m'.payloadHash ∧
      m.ccId.show ++ m.sourceAddress ++ m.destinationChain ++ m.destinationAddress =
        m'.ccId.show ++ m'.sourceAddress ++ m'.destinationChain ++ m'.destinationAddress) ∨
    Collide P (messageBytes m.hashInput) (messageBytes m'.hashInput) := by
  unfold Router.Message.hash at e
  rw [hH.message, hH.message] at e
  refine (same_or (digest_inj hH e)).imp_left (fun hb => ?_)
  obtain ⟨e1, e2⟩ := List.append_inj' hb (h.trans h'.symm)
  exact ⟨e2, utf8Bytes_inj e1⟩

/-- C97: in every history of transactions with arbitrary texts, no two different worker sets that were registered at a
multisig contract have the same id, unless Keccak-256 has the same value for their two texts.  (`SetsDistinctAt` is what
C58, C76, C82, C86 and C89 assume.) -/
theorem C97_registered {G : Texture} {setup : Setup} (hG : Sound G) (hH : Hashed G.T P) (hs : SetupTyped G.L setup)
    (ts : List TextTx) (hb : ∀ t ∈ ts, InRange t) (M : Addr) :
    SetsDistinctAt P (textLog G P setup ts) M ∨
      ∃ ws ws', RegisteredAt (textLog G P setup ts) M ws ∧ RegisteredAt (textLog G P setup ts) M ws' ∧ ws ≠ ws' ∧
        Collide P (setBytes G.T ws) (setBytes G.T ws') := by
  by_cases hc : SetsDistinctAt P (textLog G P setup ts) M
  · exact Or.inl hc
  · right
    unfold SetsDistinctAt at hc
    push Not at hc
    obtain ⟨e, he, e', he', ht, ht', r, r', ws, ws', hm, hm', hd, hd', hid, hne⟩ := hc
    have typed : ∀ {e r ws}, e ∈ textLog G P setup ts → e.p.msg = .multisig (.registerWorkerSet r) →
        r.decode = .ok ws → FullSetTyped ws := by
      intro e r ws he hm hd
      have := C95_delivered (P := P) hG hH.bytes hs ts hb e he
      rw [hm] at this
      exact decode_full hd this
    refine ⟨ws, ws', ⟨e, he, ht, r, hm, hd⟩, ⟨e', he', ht', r', hm', hd'⟩, hne, ?_⟩
    exact (C97_worker_set hG.faithful hH ws ws' (typed he hm hd) (typed he' hm' hd') hid).resolve_left hne

/-- C97: a completed proof that a prover hands out in such a history was signed by a quorum of the worker set that was the
prover's when signatures were asked for, over a batch of messages each of which was injected by nexus or verified at its
source (C76); messages, questions and answers are texts, and ids are hashes.  Otherwise two different worker sets were
registered whose texts have the same Keccak-256 hash. -/
theorem C97_signed_verified {G : Texture} {setup : Setup} (hG : Sound G) (hH : Hashed G.T P) (hs : SetupTyped G.L setup)
    (ts : List TextTx) (hb : ∀ t ∈ ts, InRange t) (R : Addr) (rc : Router.Config) (nc : Nexus.Config)
    (hw : Chain.Wired setup (textLog G P setup ts) R rc nc) (Q : Addr) (pc : Prover.Config) (sv : Str)
    (kt : Multisig.KeyType) (hQ : setup Q = some (.prover pc sv kt)) (mc : Multisig.Config)
    (hM : setup pc.multisig = some (.multisig mc)) (gc : Gateway.Config) (hg : setup pc.gateway = some (.gateway gc))
    (hr : gc.router = R) (sid : Nat) (hsid : sid ≤ u64Max) (p : Prover.Proof) (d : Bytes)
    (h : askProofText G P (textWorldAfter G P setup ts) Q sid = .ok p) (hc : p.status = .completed d) :
    (∃ l₁ e l₂ cur digest signers b ws msgs,
      textLog G P setup ts = l₁ ++ e :: l₂ ∧ e.p.target = Q ∧ Chain.currentSet (Chain.worldOf P setup l₁) Q = some cur ∧
      Prover.QuorumSigned P.C cur digest signers ∧ Prover.dataDigest P.X pc.encoder b.data = .ok digest ∧
      Prover.IsBatch P.X pc ws msgs b ∧
      Prover.executeDataOf P.X pc.encoder p.data cur.threshold signers = .ok d ∧
      ∀ m ∈ msgs, Chain.InjectedByNexus (textLog G P setup ts) rc.nexusGateway nc m ∨
        Chain.VerifiedAtSource P setup (textLog G P setup ts) (textWorldAfter G P setup ts) R m) ∨
    ∃ ws ws', RegisteredAt (textLog G P setup ts) pc.multisig ws ∧ RegisteredAt (textLog G P setup ts) pc.multisig ws' ∧
      ws ≠ ws' ∧ Collide P (setBytes G.T ws) (setBytes G.T ws') := by
  refine (C97_registered hG hH hs ts hb pc.multisig).imp_left (fun hd => ?_)
  have h : Chain.askProof P (textWorldAfter G P setup ts) Q sid = .ok p := by
    have e := C96_proof (P := P) hG hH.bytes hs ts hb Q sid hsid
    rw [h] at e
    cases hx : Chain.askProof P (textWorldAfter G P setup ts) Q sid with
    | error x => rw [hx] at e; cases e
    | ok x => rw [hx] at e; cases e; rfl
  obtain ⟨hworld, hlog⟩ := C95_history (P := P) hG hH.bytes hs ts hb
  rw [hworld] at h ⊢
  rw [hlog] at hw hd ⊢
  exact Chain.C76_signed_verified P setup _ R rc nc hw Q pc sv kt hQ mc hM gc hg hr hd sid p d h hc

end Amp.Wire
