import Verif.Wire.FitLemmas

/-!
# C94: what the contracts write into events is what the daemon reads out of them
-/

namespace Amp.Wire

open Amp.Encoding (Bytes)
open Amp.Router (ChainName Lowering)
open Amp.Std (Vote)
open Amp.Multisig (PublicKey)
open Amp.Ampd (readAll lastWith Abci)

variable {finite : Str → Bool} {T : Texts}

/-! ### Polls -/

/-- The daemon decodes the event with which a verifier starts a poll on messages, and finds in it the verifier, the poll
with its metadata and the messages, in order and field by field: nothing else can be read out of it, and it is read
whenever such a poll exists. -/
theorem C94_evm_messages (L : Lowering) (hT : T.Faithful) (V : Addr) (confs : List VV.TxConfirmation) (pm : VV.PollMeta)
    (hf : EventFits (.messagesPollStarted confs pm)) :
    ∃ e, decodeEvent finite (publishVerifier T V (.messagesPollStarted confs pm)) = some e ∧
      e.type = "wasm-messages_poll_started".toList ∧
      ∀ p, Evm.deserMessagesPoll L T e.attributes = some p ↔
        Evm.SamePoll finite L V pm p ∧ List.Forall₂ (Evm.SameMessage L) confs p.content := by
  refine ⟨_, decoded_verifier V _, rfl, fun p => ?_⟩
  rw [evm_messages_read L hT V hf.1 hf.2]
  simp only [Ampd.Evm.readMessagesPoll, evm_poll_iff, readAll_iff, evm_message_iff]

/-- The same for the handler of Sui. -/
theorem C94_sui_messages (L : Lowering) (hT : T.Faithful) (V : Addr) (confs : List VV.TxConfirmation) (pm : VV.PollMeta)
    (hf : EventFits (.messagesPollStarted confs pm)) :
    ∃ e, decodeEvent finite (publishVerifier T V (.messagesPollStarted confs pm)) = some e ∧
      e.type = "wasm-messages_poll_started".toList ∧
      ∀ p, Sui.deserMessagesPoll L T e.attributes = some p ↔
        Sui.SamePoll finite T V pm p ∧ List.Forall₂ (Sui.SameMessage L T) confs p.content := by
  refine ⟨_, decoded_verifier V _, rfl, fun p => ?_⟩
  rw [sui_messages_read L hT V hf.1 hf.2]
  simp only [Ampd.Sui.readMessagesPoll, sui_poll_iff, readAll_iff, sui_message_iff]

/-- Polls on worker sets. -/
theorem C94_evm_worker_set (L : Lowering) (hT : T.Faithful) (V : Addr) (tx : Str) (i : Nat) (o : Std.Operators)
    (pm : VV.PollMeta) (hf : EventFits (.workerSetPollStarted tx i o pm)) :
    ∃ e, decodeEvent finite (publishVerifier T V (.workerSetPollStarted tx i o pm)) = some e ∧
      e.type = "wasm-worker_set_poll_started".toList ∧
      ∀ p, Evm.deserWorkerSetPoll L T e.attributes = some p ↔
        Evm.SamePoll finite L V pm p ∧ Evm.SameWorkerSet tx i o p.content := by
  refine ⟨_, decoded_verifier V _, rfl, fun p => ?_⟩
  rw [evm_workerSet_read L hT V tx hf.1 hf.2.1 hf.2.2]
  simp only [Ampd.Evm.readWorkerSetPoll, evm_poll_iff, evm_workerSet_iff]

/-- Polls on worker sets, Sui. -/
theorem C94_sui_worker_set (hT : T.Faithful) (V : Addr) (tx : Str) (i : Nat) (o : Std.Operators)
    (pm : VV.PollMeta) (hf : EventFits (.workerSetPollStarted tx i o pm)) :
    ∃ e, decodeEvent finite (publishVerifier T V (.workerSetPollStarted tx i o pm)) = some e ∧
      e.type = "wasm-worker_set_poll_started".toList ∧
      ∀ p, Sui.deserWorkerSetPoll T e.attributes = some p ↔
        Sui.SamePoll finite T V pm p ∧ Sui.SameWorkerSet T tx i o p.content := by
  refine ⟨_, decoded_verifier V _, rfl, fun p => ?_⟩
  rw [sui_workerSet_read hT V tx hf.1 hf.2.1 hf.2.2]
  simp only [Ampd.Sui.readWorkerSetPoll, sui_poll_iff, sui_workerSet_iff]

/-! ### Signing -/

/-- Sessions of the multisig contract. -/
theorem C94_signing (hT : T.Faithful) (curve : PublicKey → Option Bytes) (M : Addr) (id : Nat) (wid : Str)
    (keys : List (Addr × PublicKey)) (msg : Bytes) (chain : Str)
    (hf : SigningFits (.signingStarted id wid keys msg chain)) :
    ∃ e, decodeEvent finite (publishMultisig T M (.signingStarted id wid keys msg chain)) = some e ∧
      e.type = "wasm-signing_started".toList ∧
      ∀ s, Signing.deserSigning T curve e.attributes = some s ↔ Signing.SameSession finite curve M id keys msg s := by
  refine ⟨_, decoded_multisig M _, rfl, fun s => ?_⟩
  rw [signing_read hT curve M wid msg chain hf.1 hf.2.1, signing_iff curve M id wid keys hf.2.2 chain]

/-! ### Texts that are mistaken for something else -/

/-- A text that begins with a letter is taken for itself, unless it begins with one of the words of JSON; so is one that
begins with `0x`. -/
theorem C94_plain (s : Str)
    (h : (∃ c t, s = c :: t ∧ c.isAlpha = true ∧
        ¬ "null".toList <+: s ∧ ¬ "true".toList <+: s ∧ ¬ "false".toList <+: s) ∨ "0x".toList <+: s) (t : Str) :
    ReadsAs finite s t ↔ t = s := by
  have hn : fromStr finite s = none := by
    rcases h with ⟨c, u, rfl, hc, h1, h2, h3⟩ | ⟨u, rfl⟩
    · by_cases hw : c = 'n' ∨ c = 't' ∨ c = 'f'
      · exact fromStr_word finite hw h1 h2 h3
      · refine fromStr_head finite ?_ u
        have hd : ∀ x : Char, x.isAlpha = false → c ≠ x := by
          intro x hx e; rw [e, hx] at hc; exact Bool.noConfusion hc
        have hdig : c.isDigit = false := by
          cases hd : c.isDigit
          · rfl
          · simp only [Char.isDigit, Bool.and_eq_true, decide_eq_true_eq, ge_iff_le, UInt32.le_iff_toNat_le] at hd
            simp only [Char.isAlpha, Char.isUpper, Char.isLower, Bool.or_eq_true, Bool.and_eq_true, decide_eq_true_eq,
              ge_iff_le, UInt32.le_iff_toNat_le] at hc
            have e1 : '9'.val.toNat = 57 := rfl
            have e2 : 'A'.val.toNat = 65 := rfl
            have e3 : 'a'.val.toNat = 97 := rfl
            omega
        simp only [not_or] at hw
        simp only [opens, hd ' ' (by decide), hd '\n' (by decide), hd '\t' (by decide), hd '\r' (by decide), hw.1, hw.2.1,
          hw.2.2, hd '-' (by decide), hdig, hd '"' (by decide), hd '[' (by decide), hd '{' (by decide), decide_false,
          Bool.or_self]
    · exact fromStr_0x finite u
  simp only [ReadsAs, hn, true_and, reduceCtorEq, or_false]

/-- The digest to be signed is written as hexadecimal text.  It cannot be read back exactly if that text is a JSON number:
digits without leading zeros, alone or with an exponent behind an `e`, not too large to be a floating point number.  All
other digests are read as they are. -/
theorem C94_digest (msg : Bytes) (hb : IsBytes msg) (hl : msg.length = 32) :
    ((∀ t, ¬ ReadsAs finite (encodeHex msg) t) ↔ NumberText (encodeHex msg) ∧ finite (encodeHex msg) = true) ∧
      (¬ (NumberText (encodeHex msg) ∧ finite (encodeHex msg) = true) →
        ∀ t, ReadsAs finite (encodeHex msg) t ↔ t = encodeHex msg) := by
  have hx := hexText_encodeHex hb
  have hlen : (encodeHex msg).length = 64 := by
    have : ∀ b : Bytes, (encodeHex b).length = 2 * b.length := by
      intro b
      induction b with
      | nil => rfl
      | cons x t ih => simp only [encodeHex, List.length_cons, ih]; omega
    rw [this, hl]
  have hnone : fromStr finite (encodeHex msg) = none ↔ ¬ (NumberText (encodeHex msg) ∧ finite (encodeHex msg) = true) := by
    constructor
    · rintro h ⟨h1, h2⟩
      obtain ⟨j, hj, _⟩ := fromStr_number h1 h2
      rw [h] at hj; simp at hj
    · intro h
      cases hj : fromStr finite (encodeHex msg) with
      | none => rfl
      | some j =>
        obtain ⟨h1, ⟨n, _, hn, hi, hv⟩ | ⟨_, h2⟩⟩ := fromStr_hex_some hx hj
        · exact absurd hn (by rw [hv]; exact Nat.not_le.mpr (big_digits hi hlen))
        · exact absurd ⟨h1, h2⟩ h
  constructor
  · rw [← not_iff_not, not_forall, ← hnone]
    constructor
    · rintro ⟨t, ht⟩
      exact (readsAs_hex hx (not_not.mp ht)).2
    · intro h
      exact ⟨_, not_not.mpr (Or.inl ⟨h, rfl⟩)⟩
  · intro h t
    simp only [ReadsAs, hnone.mpr h, true_and, reduceCtorEq, or_false]

/-! ### The hypotheses hold of everything the contracts emit -/

/-- Every event of a verifier, in every history of calls with typed arguments, is in range. -/
theorem C94_verifier_fits (H : VV.Hashes) (cfg : VV.Config) (hc : cfg.confirmationHeight ≤ u64Max) (cs : List VV.Call)
    (ht : ∀ c ∈ cs, TypedCall c) (e : VV.Call × VV.Resp) (he : e ∈ VV.history H cfg cs) (ev : VV.Event)
    (hev : e.2.event = some ev) : EventFits ev := by
  obtain ⟨cs₁, cs₂, s', hcs, hx⟩ := outs_mem _ he
  refine exec_event_fits hx ?_ (ht e.1 (by rw [hcs]; simp)) ev hev
  have : (runCalls (VV.exec H) (VV.init cfg) cs₁).config = cfg :=
    runCalls_inv (VV.exec H) (P := fun s => s.config = cfg) (fun s c s' r hp h => by rw [VV.exec_config h, hp]) _ rfl cs₁
  rw [this]; exact hc

/-- Every event of a multisig contract, likewise. -/
theorem C94_multisig_fits (C : Multisig.Crypto) (idOf : Multisig.WorkerSet → Str) (cfg : Multisig.Config)
    (cs : List Multisig.Call) (ht : ∀ c ∈ cs, TypedSigningCall c) (st : Step Multisig.State Multisig.Call Multisig.Resp)
    (hst : st ∈ Multisig.trace C idOf cfg cs) (ev : Multisig.Event) (hev : ev ∈ st.resp.events) : SigningFits ev := by
  obtain ⟨⟨cs₁, cs₂, hcs, hpre⟩, hx⟩ := steps_mem _ hst
  rw [hpre] at hx
  exact exec_signing_fits hx (ht _ (by rw [hcs]; simp)) (fun c hc => ht c (by rw [hcs]; simp [hc])) ev hev

/-! ### Handlers -/

/-- The handlers do with the text of an event what C70, C73 and C92 say they do with the event itself. -/
theorem C94_evm_handlers {D : Type} (L : Lowering) (hT : T.Faithful) (decodeLog : D → Option Ampd.Evm.GatewayEvent)
    (H : Ampd.Evm.Handler) (E : Ampd.Evm.Env D) (V : Addr) (ev : VV.Event) (hf : EventFits ev) :
    ∃ e, decodeEvent finite (publishVerifier T V ev) = some e ∧
      Ampd.Evm.handleMessages L decodeLog (Evm.deserMessagesPoll L T) H E (.abci e) =
        Ampd.Evm.handleMessages L decodeLog (Ampd.Evm.readMessagesPoll L (reader finite T)) H E
          (.abci (Ampd.announced V ev)) ∧
      Ampd.Evm.handleWorkerSet decodeLog (Evm.deserWorkerSetPoll L T) H E (.abci e) =
        Ampd.Evm.handleWorkerSet decodeLog (Ampd.Evm.readWorkerSetPoll L (reader finite T)) H E
          (.abci (Ampd.announced V ev)) := by
  refine ⟨_, decoded_verifier V ev, ?_, ?_⟩
  · have key : Ampd.tryFrom "wasm-messages_poll_started".toList (Evm.deserMessagesPoll L T)
        (.abci ⟨Ampd.eventType ev, verifierMap finite T V ev⟩) =
        Ampd.tryFrom "wasm-messages_poll_started".toList (Ampd.Evm.readMessagesPoll L (reader finite T))
          (.abci (Ampd.announced V ev)) := by
      cases ev with
      | messagesPollStarted confs pm =>
        exact tryFrom_congr rfl (evm_messages_read L hT V hf.1 hf.2)
      | _ => rfl
    simp only [Ampd.Evm.handleMessages, key]
  · have key : Ampd.tryFrom "wasm-worker_set_poll_started".toList (Evm.deserWorkerSetPoll L T)
        (.abci ⟨Ampd.eventType ev, verifierMap finite T V ev⟩) =
        Ampd.tryFrom "wasm-worker_set_poll_started".toList (Ampd.Evm.readWorkerSetPoll L (reader finite T))
          (.abci (Ampd.announced V ev)) := by
      cases ev with
      | workerSetPollStarted tx i o pm =>
        exact tryFrom_congr rfl (evm_workerSet_read L hT V tx hf.1 hf.2.1 hf.2.2)
      | _ => rfl
    simp only [Ampd.Evm.handleWorkerSet, key]

/-- The same for the handlers of Sui. -/
theorem C94_sui_handlers {J : Type} (L : Lowering) (hT : T.Faithful) (P : Ampd.Sui.Json J)
    (H : Ampd.Sui.Handler) (E : Ampd.Sui.Env J) (V : Addr) (ev : VV.Event) (hf : EventFits ev) :
    ∃ e, decodeEvent finite (publishVerifier T V ev) = some e ∧
      Ampd.Sui.handleMessages L P (Sui.deserMessagesPoll L T) H E (.abci e) =
        Ampd.Sui.handleMessages L P (Ampd.Sui.readMessagesPoll L (reader finite T)) H E (.abci (Ampd.announced V ev)) ∧
      Ampd.Sui.handleWorkerSet P (Sui.deserWorkerSetPoll T) H E (.abci e) =
        Ampd.Sui.handleWorkerSet P (Ampd.Sui.readWorkerSetPoll (reader finite T)) H E (.abci (Ampd.announced V ev)) := by
  refine ⟨_, decoded_verifier V ev, ?_, ?_⟩
  · have key : Ampd.tryFrom "wasm-messages_poll_started".toList (Sui.deserMessagesPoll L T)
        (.abci ⟨Ampd.eventType ev, verifierMap finite T V ev⟩) =
        Ampd.tryFrom "wasm-messages_poll_started".toList (Ampd.Sui.readMessagesPoll L (reader finite T))
          (.abci (Ampd.announced V ev)) := by
      cases ev with
      | messagesPollStarted confs pm =>
        exact tryFrom_congr rfl (sui_messages_read L hT V hf.1 hf.2)
      | _ => rfl
    simp only [Ampd.Sui.handleMessages, key]
  · have key : Ampd.tryFrom "wasm-worker_set_poll_started".toList (Sui.deserWorkerSetPoll T)
        (.abci ⟨Ampd.eventType ev, verifierMap finite T V ev⟩) =
        Ampd.tryFrom "wasm-worker_set_poll_started".toList (Ampd.Sui.readWorkerSetPoll (reader finite T))
          (.abci (Ampd.announced V ev)) := by
      cases ev with
      | workerSetPollStarted tx i o pm =>
        exact tryFrom_congr rfl (sui_workerSet_read hT V tx hf.1 hf.2.1 hf.2.2)
      | _ => rfl
    simp only [Ampd.Sui.handleWorkerSet, key]

/-- The same for the signing handler and C77. -/
theorem C94_signing_handler (hT : T.Faithful) (curve : PublicKey → Option Bytes) (H : Ampd.Signing.Handler)
    (E : Ampd.Signing.Env) (M : Addr) (ev : Multisig.Event) (hf : SigningFits ev) :
    ∃ e, decodeEvent finite (publishMultisig T M ev) = some e ∧
      Ampd.Signing.handle (Signing.deserSigning T curve) H E (.abci e) =
        Ampd.Signing.handle (Ampd.Signing.readSigning (signingReader finite curve)) H E
          (.abci (Ampd.Signing.announced M ev)) := by
  refine ⟨_, decoded_multisig M ev, ?_⟩
  have key : Ampd.tryFrom "wasm-signing_started".toList (Signing.deserSigning T curve)
      (.abci ⟨Ampd.Signing.eventType ev, multisigMap finite T M ev⟩) =
      Ampd.tryFrom "wasm-signing_started".toList (Ampd.Signing.readSigning (signingReader finite curve))
        (.abci (Ampd.Signing.announced M ev)) := by
    cases ev with
    | signingStarted id wid keys msg chain =>
      exact tryFrom_congr rfl (signing_read hT curve M wid msg chain hf.1 hf.2.1)
    | _ => rfl
  simp only [Ampd.Signing.handle, key]

/-! ### What stops a handler for good -/

/-- A session whose digest, in hexadecimal, is a number stops the signing handlers of all daemons at its block. -/
theorem C94_digest_stalls (W : Ampd.World RawEvent (Abci (List (Str × Json)))) (hW : W.decode = decodeEvent finite)
    (hT : T.Faithful) (curve : PublicKey → Option Bytes) (H : Ampd.Signing.Handler) (l : Ampd.Label) (rs : List Ampd.Run)
    (h : Ampd.Sane W l [] rs)
    (hf : Ampd.EachRun W (fun f r => Ampd.Faithful W (Ampd.Signing.can (Signing.deserSigning T curve) H) f r l) [] rs)
    (b : Nat) (M : Addr) (id : Nat) (wid : Str) (keys : List (Addr × PublicKey)) (msg : Bytes) (chain : Str)
    (hfit : SigningFits (.signingStarted id wid keys msg chain)) (hl : msg.length = 32)
    (hr : publishMultisig T M (.signingStarted id wid keys msg chain) ∈ Ampd.contents (W.chain b))
    (hnum : NumberText (encodeHex msg)) (hfin : finite (encodeHex msg) = true) :
    b ∉ Ampd.durableAcks W l [] rs ∧
      ∀ first ∈ (Ampd.durableAcks W l [] rs).head?, first < b → ∀ n ∈ (Ampd.fileAfterAll W rs).get? l, n < b := by
  obtain ⟨e, he, hty, hread⟩ := C94_signing (finite := finite) hT curve M id wid keys msg chain hfit
  refine Ampd.C70_stall W _ l rs h hf b (Ampd.Signing.poisoned hr (by rw [hW]; exact he) hty ?_)
  cases hd : Signing.deserSigning T curve e.attributes with
  | none => rfl
  | some s => exact absurd ((hread s).mp hd).readable ((C94_digest msg hfit.2.2 hl).1.mpr ⟨hnum, hfin⟩ _)

/-- A verifier for a chain whose name is JSON other than a string - a number, `true`, `null` - stops the EVM message
handlers of all daemons with its first poll. -/
theorem C94_chain_name_stalls {D : Type} (W : Ampd.World RawEvent (Abci (List (Str × Json))))
    (hW : W.decode = decodeEvent finite) (hT : T.Faithful) (L : Lowering)
    (decodeLog : D → Option Ampd.Evm.GatewayEvent) (H : Ampd.Evm.Handler) (l : Ampd.Label) (rs : List Ampd.Run)
    (h : Ampd.Sane W l [] rs)
    (hf : Ampd.EachRun W (fun f r => Ampd.Faithful W (Ampd.Evm.can L decodeLog (Evm.deserMessagesPoll L T) H) f r l) [] rs)
    (b : Nat) (V : Addr) (confs : List VV.TxConfirmation) (pm : VV.PollMeta)
    (hfit : EventFits (.messagesPollStarted confs pm))
    (hr : publishVerifier T V (.messagesPollStarted confs pm) ∈ Ampd.contents (W.chain b))
    (j : Json) (hj : fromStr finite pm.sourceChain = some j) (hns : ∀ s, j ≠ .str s) :
    b ∉ Ampd.durableAcks W l [] rs ∧
      ∀ first ∈ (Ampd.durableAcks W l [] rs).head?, first < b → ∀ n ∈ (Ampd.fileAfterAll W rs).get? l, n < b := by
  obtain ⟨e, he, hty, hread⟩ := C94_evm_messages (finite := finite) L hT V confs pm hfit
  refine Ampd.C70_stall W _ l rs h hf b (Ampd.Evm.poisoned hr (by rw [hW]; exact he) hty ?_)
  cases hd : Evm.deserMessagesPoll L T e.attributes with
  | none => rfl
  | some s =>
    obtain ⟨t, ht, _⟩ := ((hread s).mp hd).1.sourceChain
    rcases ht with ⟨ht, _⟩ | ht <;> rw [hj] at ht
    · simp at ht
    · simp only [Option.some.injEq] at ht
      exact absurd ht (hns t)

end Amp.Wire
