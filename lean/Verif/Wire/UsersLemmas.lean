import Verif.Wire.UsersSpec
import Verif.Wire.StoredProps
import Verif.Wire.DeployTextProps
import Verif.Encoding.ExecuteOctets

/-!
# Lemmas for C111: users' questions are answered
-/

namespace Amp.Wire

open Amp.Encoding (SignersOctets)
open Amp.Router (ChainName Lowering CCId Message)
open Amp.Multisig (Signer Signature)
open Amp.Chain (Params World Store Entry answer)

variable {G : Texture} {P : Params}

/-! ### Proofs -/

theorem asProofStatus_json {s : Prover.ProofStatus} (h : ∀ d, s = .completed d → IsBytes d) :
    asProofStatus (jsonProofStatus s) = some s := by
  cases s with
  | pending => rfl
  | completed d =>
    unfold asProofStatus jsonProofStatus
    rw [oneOf_tail rfl]
    refine oneOf_head ?_
    rw [onVariant_self, one_some _ (asHex_jsonHex (h d rfl))]
    rfl

/-- `GetProofResponse` -/
structure ProofTyped (L : Lowering) (p : Prover.Proof) : Prop where
  messageIds : ∀ i ∈ p.messageIds, CCIdTyped L i
  chainId : p.data.destinationChainId ≤ u256Max
  commands : ∀ c ∈ p.data.commands, IsBytes c.id ∧ IsBytes c.params
  executeData : ∀ d, p.status = .completed d → IsBytes d

theorem asData_json {d : Encoding.Data} (h : d.destinationChainId ≤ u256Max)
    (hc : ∀ c ∈ d.commands, IsBytes c.id ∧ IsBytes c.params) : asData (jsonData d) = some d := by
  rw [asData, jsonData, two_some (by decide) (asUint_jsonUint h) (asVec_map (fun c hm => asCommand_json (hc c hm)))]
  rfl

theorem asProof_json {sid : Nat} (hs : sid ≤ u64Max) {p : Prover.Proof} (h : ProofTyped G.L p) :
    asProof G.L (jsonProof sid p) = some (sid, p) := by
  have e : asProof G.L (jsonProof sid p) = match asUint u64Max (jsonUint sid),
      asVec (asCCId G.L) (.arr (p.messageIds.map jsonCCId)), asData (jsonData p.data), asProofStatus (jsonProofStatus p.status) with
    | some sid, some ids, some x, some st => some (sid, ⟨ids, x, st⟩)
    | _, _, _, _ => none := rfl
  rw [e, asUint_jsonUint hs, asVec_map (fun i hi => asCCId_json (h.messageIds i hi)), asData_json h.chainId h.commands,
    asProofStatus_json h.executeData]

theorem fits_data (d : Encoding.Data) : (jsonData d).Fits 127 := by
  refine fits_two (d := 126) (fits_uint _ _) (fits_arr (d := 125) (fun c _ => ?_) (by omega)) (by omega)
  rw [jsonCommand, Json.Fits]
  simp only [Json.FitsFields, Json.FitsField]
  exact ⟨by omega, fits_str _ _, fits_str _ _, fits_str _ _, trivial⟩

theorem fits_proof (sid : Nat) (p : Prover.Proof) : (jsonProof sid p).Fits 128 := by
  have h1 : (Json.arr (p.messageIds.map jsonCCId)).Fits 127 := fits_arr (d := 126) (fun i _ => fits_ccId i (by omega)) (by omega)
  have h2 : (jsonProofStatus p.status).Fits 127 := by
    cases p.status with
    | pending => exact fits_str _ _
    | completed d => exact fits_one (d := 126) (fits_one (d := 125) (fits_str _ _) (by omega)) (by omega)
  rw [jsonProof, Json.Fits]
  simp only [Json.FitsFields, Json.FitsField]
  exact ⟨by omega, fits_uint _ _, h1, fits_data _, h2, trivial⟩

theorem keep_octets {q : Nat} : ∀ (l : List (Signer × Option Signature)) (acc : Nat) {r : List (Signer × Option Signature)},
    SignersOctets l → Prover.keepUntil q acc l = .ok r → SignersOctets r
  | [], _, r, _, h => by
    simp only [Prover.keepUntil, Except.ok.injEq] at h
    rw [← h]; exact fun e he => (List.not_mem_nil he).elim
  | (sg, sig) :: t, acc, r, hl, h => by
    have ht : SignersOctets t := fun e he => hl e (List.mem_cons_of_mem _ he)
    have hk := (hl _ (List.mem_cons_self ..)).1
    unfold Prover.keepUntil at h
    split at h
    · rename_i x
      have hx := (hl _ (List.mem_cons_self ..)).2 x rfl
      split at h
      · split at h
        · simp at h
        split at h
        · simp at h
        rename_i r' hr
        simp only [Except.ok.injEq] at h
        rw [← h]
        intro e he
        rcases List.mem_cons.mp he with rfl | he
        · exact ⟨hk, fun s hs => by cases hs; exact hx⟩
        · exact keep_octets t _ ht hr e he
      · split at h
        · simp at h
        rename_i r' hr
        simp only [Except.ok.injEq] at h
        rw [← h]
        intro e he
        rcases List.mem_cons.mp he with rfl | he
        · exact ⟨hk, fun s hs => by cases hs⟩
        · exact keep_octets t _ ht hr e he
    · split at h
      · simp at h
      rename_i r' hr
      simp only [Except.ok.injEq] at h
      rw [← h]
      intro e he
      rcases List.mem_cons.mp he with rfl | he
      · exact ⟨hk, fun s hs => by cases hs⟩
      · exact keep_octets t _ ht hr e he

theorem session_octets {m : Multisig.Multisig} (h : SessionTyped m) : SignersOctets m.signers := by
  intro e he
  refine ⟨?_, fun s hs => h.signatures e he s hs⟩
  have := h.keys e he
  revert this
  cases e.1.pubKey with
  | ecdsa b => exact fun h => h.1
  | ed25519 b => exact fun h => h.1

theorem proof_typed (hX : Octets P.X) (h4 : FourIds P.X) {s : Prover.State} {sv : Str} {kt : Multisig.KeyType}
    (hs : StoreFits G.L (.prover s sv kt)) {f : Nat → Option Multisig.Multisig} {sid : Nat}
    (hf : ∀ m, f sid = some m → SessionTyped m) {p : Prover.Proof} (h : Prover.getProof P.X s f sid = .ok p) :
    ProofTyped G.L p := by
  unfold Prover.getProof at h
  split at h
  · simp at h
  rename_i bid _
  split at h
  · simp at h
  rename_i b hb
  have hbr : BatchInRange G.L b := hs.1 (.batch bid) (.batch b) (by simp only [stored, hb, Option.map_some])
  split at h
  · simp at h
  split at h
  · simp at h
  rename_i m hm
  have ht := hf m hm
  split at h
  · simp only [Except.ok.injEq] at h
    rw [← h]
    exact ⟨hbr.messageIds, hbr.chainId, hbr.commands, fun d hd => by cases hd⟩
  · split at h
    · simp at h
    rename_i signers hsig
    split at h
    · simp at h
    · simp at h
    rename_i d hd
    simp only [Except.ok.injEq] at h
    rw [← h]
    refine ⟨hbr.messageIds, hbr.chainId, hbr.commands, fun d' hd' => ?_⟩
    simp only [Prover.ProofStatus.completed.injEq] at hd'
    rw [← hd']
    have ho : SignersOctets signers := by
      refine keep_octets _ _ ?_ hsig
      intro e he
      exact session_octets ht e ((Encoding.sortBy_perm _ _).mem_iff.mp he)
    unfold Prover.Batch.executeData at hd
    split at hd
    · exact Encoding.Abi.executeData_isBytes hX.keccak h4 hbr.commands ho hd
    · exact Encoding.Bcs.executeData_isBytes h4 hbr.commands ho hd

/-- the proof that a prover hands out is of its type -/
theorem askProof_typed (hX : Octets P.X) (h4 : FourIds P.X) {w : World} (hw : WorldTyped G.L w) (hf : WorldFits G.L w) {a : Addr}
    {sid : Nat} {p : Prover.Proof} (h : Chain.askProof P w a sid = .ok p) : ProofTyped G.L p := by
  unfold Chain.askProof at h
  split at h
  · rename_i s sv kt hs
    split at h
    · rename_i t ht
      exact proof_typed hX h4 (hf _ _ hs) (fun m hm => session_typed (hw _ _ ht) hm) h
    · simp at h
  · simp at h

/-! ### Answers -/

theorem oneOf_first {α : Type} {f : Json → Option α} {t : List (Json → Option α)} {j : Json} (h : oneOf t j = none) :
    oneOf (f :: t) j = f j := by
  unfold oneOf
  cases f j with
  | some a => rfl
  | none => exact h

/-- to what contracts ask, users get the same answer -/
theorem replies_contract (w : World) (a : Addr) (s : Store) (q : Question) :
    replies G P w a s (q.json G.T) = answers G P s (q.json G.T) := by
  cases s with
  | router s => cases q <;> rfl
  | prover s sv kt => cases q <;> rfl
  | multisig s => exact oneOf_first (by cases q <;> rfl)
  | registry s => exact oneOf_first (by cases q <;> rfl)
  | _ => rfl

theorem query_eq {w : World} {a : Addr} {q : Json} (hq : q.Fits 128) :
    query G P w a q.render = (w a).bind (fun s => (replies G P w a s q).map Json.render) := by
  unfold query
  rw [fromStr_render G.finite hq]
  cases w a <;> rfl

/-- an answer that is read as it was written -/
theorem text_read {α β : Type} {read : Json → Option β} {json : α → Json} {g : α → β} {x : Option α}
    (h : ∀ a, x = some a → (json a).Fits 128 ∧ read (json a) = some (g a)) :
    ((x.map json).map Json.render).map (fun t => (fromStr G.finite t).bind read) = (x.map g).map some := by
  cases x with
  | none => rfl
  | some a =>
    obtain ⟨h1, h2⟩ := h a rfl
    show some ((fromStr G.finite (json a).render).bind read) = some (some (g a))
    rw [fromStr_render G.finite h1, Option.bind_some, h2]

theorem fits_question (T : Texts) (q : Question) : (q.json T).Fits 128 := by
  cases q with
  | isVerified ms => exact fits_isVerified ms
  | isSetVerified o => exact fits_isSetVerified o
  | getMessages ids => exact fits_getMessages ids
  | activeWorkers sv c => exact fits_activeWorkers sv c
  | publicKey a kt => exact fits_askKey a kt
  | getMultisig id => exact fits_getMultisig id

theorem fits_userQuestion (T : Texts) (q : UserQuestion) : (q.json T).Fits 128 := by
  cases q with
  | contract q => exact fits_question T q
  | chainInfo n => exact fits_one (d := 127) (fits_str _ _) (by omega)
  | proof sid => exact fits_one (d := 127) (fits_one (d := 126) (fits_uint _ _) (by omega)) (by omega)
  | currentSet => exact fits_str _ _
  | registeredSet id => exact fits_one (d := 127) (fits_one (d := 126) (fits_str _ _) (by omega)) (by omega)
  | service n => exact fits_one (d := 127) (fits_one (d := 126) (fits_str _ _) (by omega)) (by omega)
  | worker n x => exact fits_one (d := 127) (fits_two (d := 126) (fits_str _ _) (fits_str _ _) (by omega)) (by omega)

theorem answer_some {ε α : Type} {x : Except ε α} {a : α} (h : answer x = some a) : x = .ok a := by
  cases x with
  | error e => cases h
  | ok b => simp only [answer, Option.some.injEq] at h; rw [h]

/-- what contracts ask each other, asked by a user -/
theorem contract_answer (hG : Sound G) {w : World} (hw : WorldTyped G.L w) (a : Addr) (q : Question) (hq : q.Typed G.L) :
    (query G P w a (q.json G.T).render).map (UserQuestion.readText G (.contract q)) =
      (((w a).bind (q.truth P)).map UserReply.contract).map some := by
  have hT := hG.faithful
  rw [query_eq (fits_question G.T q)]
  cases hs : w a with
  | none => rfl
  | some s =>
    have h := hw _ _ hs
    show ((replies G P w a s (q.json G.T)).map Json.render).map _ = ((q.truth P s).map UserReply.contract).map some
    rw [replies_contract]
    cases q with
    | isVerified ms =>
      rw [Question.json, answers_isVerified hq]
      cases s with
      | verifier s =>
        refine (text_read (g := fun l => UserReply.contract (.statuses l)) ?_).trans ?_
        · intro l hl
          refine ⟨fits_statuses l, ?_⟩
          simp only [UserQuestion.read, Question.read]
          rw [asStatuses_json (statuses_typed (answer_some hl) hq)]
          rfl
        · simp only [Question.truth]
          cases answer (VV.isVerified P.H s ms) <;> rfl
      | _ => rfl
    | isSetVerified o =>
      rw [Question.json, answers_isSetVerified hq]
      cases s with
      | verifier s =>
        refine (text_read (g := fun l => UserReply.contract (.verified l)) ?_).trans ?_
        · exact fun l _ => ⟨by simp only [Json.Fits], rfl⟩
        · simp only [Question.truth]
          cases answer (VV.isWorkerSetVerified P.H s o) <;> rfl
      | _ => rfl
    | getMessages ids =>
      rw [Question.json, answers_getMessages hq]
      cases s with
      | gateway s =>
        refine (text_read (g := fun l => UserReply.contract (.messages l)) ?_).trans ?_
        · intro l hl
          refine ⟨fits_messages l (by omega), ?_⟩
          simp only [UserQuestion.read, Question.read]
          rw [asMessages_json (messages_typed h (answer_some hl))]
          rfl
        · simp only [Question.truth]
          cases answer (Gateway.getMessages s ids) <;> rfl
      | _ => rfl
    | activeWorkers sv c =>
      rw [Question.json, answers_activeWorkers hq]
      cases s with
      | registry s =>
        refine (text_read (g := fun l => UserReply.contract (.workers l)) ?_).trans ?_
        · intro l hl
          refine ⟨fits_workers l, ?_⟩
          simp only [UserQuestion.read, Question.read]
          rw [asWorkers_json hT (workers_typed h (answer_some hl))]
          rfl
        · simp only [Question.truth]
          cases answer (Registry.getActiveWorkers s sv c) <;> rfl
      | _ => rfl
    | publicKey x kt =>
      rw [Question.json, answers_publicKey hT]
      cases s with
      | multisig s =>
        refine (text_read (g := fun l => UserReply.contract (.key l)) ?_).trans ?_
        · intro k hk
          refine ⟨fits_publicKey k (by omega), ?_⟩
          simp only [UserQuestion.read, Question.read]
          rw [asPublicKey_json (key_fits h (answer_some hk))]
          rfl
        · simp only [Question.truth]
          cases answer (Multisig.getPublicKey s x kt) <;> rfl
      | _ => rfl
    | getMultisig id =>
      rw [Question.json, answers_getMultisig hq]
      cases s with
      | multisig s =>
        refine (text_read (g := fun l => UserReply.contract (.session l)) ?_).trans ?_
        · intro m hm
          have ht := session_typed h hm
          refine ⟨fits_session ht, ?_⟩
          simp only [UserQuestion.read, Question.read]
          rw [asSession_json hT ht]
          rfl
        · simp only [Question.truth]
          cases Multisig.getMultisig s id <;> rfl
      | _ => rfl

theorem oneOf_last {α : Type} {f : Json → Option α} {j : Json} : oneOf [f] j = f j := oneOf_first rfl

theorem replies_chainInfo {n : ChainName} (h : n.Valid G.L) (w : World) (a : Addr) (s : Store) :
    replies G P w a s (askChainInfo n) = match s with
      | .router s => (Router.lookup s.chains n).map (jsonEndpoint G.T)
      | _ => none := by
  cases s with
  | router s =>
    dsimp only [replies, routerReplies]
    rw [askChainInfo, onVariant_self, asName_str h, Option.bind_some]
    rfl
  | _ => rfl

theorem replies_proof {sid : Nat} (h : sid ≤ u64Max) (w : World) (a : Addr) (s : Store) :
    replies G P w a s (askProofJson sid) = match s with
      | .prover _ _ _ => (answer (askProofText G P w a sid)).map (jsonProof sid)
      | _ => none := by
  cases s with
  | prover s sv kt =>
    dsimp only [replies, proverReplies]
    rw [oneOf_first rfl, askProofJson, onVariant_self, one_some _ (asUint_jsonUint h), Option.bind_some]
  | _ => rfl

theorem replies_currentSet (w : World) (a : Addr) (s : Store) :
    replies G P w a s askProverSet = match s with
      | .prover s _ _ => s.current.map (jsonWorkerSetFull G.T)
      | _ => none := by
  cases s with
  | prover s sv kt =>
    dsimp only [replies, proverReplies]
    rw [oneOf_tail rfl, oneOf_last]
    rfl
  | _ => rfl

theorem replies_registeredSet (id : Str) (w : World) (a : Addr) (s : Store) :
    replies G P w a s (askRegisteredSet id) = match s with
      | .multisig s => (s.workerSets id).map (jsonWorkerSetFull G.T)
      | _ => none := by
  cases s with
  | multisig s =>
    dsimp only [replies, multisigReplies]
    rw [oneOf_tail rfl, oneOf_last, askRegisteredSet, onVariant_self, one_some _ (x := id) rfl, Option.bind_some]
    rfl
  | _ => rfl

theorem replies_service (n : Str) (w : World) (a : Addr) (s : Store) :
    replies G P w a s (askService n) = match s with
      | .registry s => (Registry.findService s.services n).map (jsonService G.T G.u n)
      | _ => none := by
  cases s with
  | registry s =>
    dsimp only [replies, registryReplies]
    rw [oneOf_tail rfl, oneOf_tail rfl, oneOf_last, askService, onVariant_self, one_some _ (x := n) rfl, Option.bind_some]
  | _ => rfl

theorem replies_worker (n x : Str) (w : World) (a : Addr) (s : Store) :
    replies G P w a s (askWorker n x) = match s with
      | .registry s => ((G.T.parse n).bind (fun y => Registry.findWorker s x y)).map (jsonWorker G.T)
      | _ => none := by
  cases s with
  | registry s =>
    dsimp only [replies, registryReplies]
    rw [oneOf_tail rfl, oneOf_first rfl, askWorker, onVariant_self, two_some (by decide) (x := n) (y := x) rfl rfl,
      Option.bind_some]
    dsimp only
    unfold Registry.queryGetWorker Registry.getWorker Registry.loadWorker
    cases G.T.parse n with
    | none => rfl
    | some y =>
      dsimp only [Option.bind_some]
      cases Registry.findWorker s x y <;> rfl
  | _ => rfl

/-- what only users ask, but for workers -/
theorem user_answer (hG : Sound G) (hX : Octets P.X) (h4 : FourIds P.X) {w : World} (hw : WorldTyped G.L w) (hf : WorldFits G.L w)
    (a : Addr) (q : UserQuestion) (hq : q.Typed G.L) (hn : ∀ n x, q ≠ .worker n x) :
    (query G P w a (q.json G.T).render).map (q.readText G) = (q.truth G.T P w a).map some := by
  have hT := hG.faithful
  cases q with
  | contract q => exact contract_answer hG hw a q hq
  | worker n x => exact absurd rfl (hn n x)
  | chainInfo n =>
    rw [query_eq (fits_userQuestion G.T _)]
    unfold UserQuestion.truth
    cases hs : w a with
    | none => rfl
    | some s =>
      show ((replies G P w a s (askChainInfo n)).map Json.render).map _ = _
      rw [replies_chainInfo hq]
      cases s with
      | router s =>
        refine text_read (g := UserReply.endpoint) ?_
        intro e he
        have hr : e.name.Valid G.L ∧ e.frozen.toNat ≤ 3 :=
          (hf _ _ hs).1 (.chain n) (.endpoint e) (by simp only [stored, he, Option.map_some])
        refine ⟨fits_endpoint hr.2, ?_⟩
        simp only [UserQuestion.read]
        rw [asEndpoint_json hT hr]
        rfl
      | _ => rfl
  | proof sid =>
    rw [query_eq (fits_userQuestion G.T _)]
    have e : (UserQuestion.proof sid).truth G.T P w a = (answer (askProofText G P w a sid)).map (.proof sid) := by
      rw [proof_text hT hw hq]; rfl
    rw [e]
    cases hs : w a with
    | none =>
      have : askProofText G P w a sid = .error .std := by unfold askProofText; rw [hs]
      rw [this]
      rfl
    | some s =>
      show ((replies G P w a s (askProofJson sid)).map Json.render).map _ = _
      rw [replies_proof hq]
      cases s with
      | prover s sv kt =>
        refine text_read (g := UserReply.proof sid) ?_
        intro p hp
        rw [proof_text hT hw hq] at hp
        refine ⟨fits_proof sid p, ?_⟩
        simp only [UserQuestion.read]
        rw [asProof_json hq (askProof_typed hX h4 hw hf (answer_some hp))]
        rfl
      | _ =>
        have : askProofText G P w a sid = .error .std := by unfold askProofText; rw [hs]
        rw [this]
        rfl
  | currentSet =>
    rw [query_eq (fits_userQuestion G.T _)]
    unfold UserQuestion.truth
    cases hs : w a with
    | none => rfl
    | some s =>
      show ((replies G P w a s askProverSet).map Json.render).map _ = _
      rw [replies_currentSet]
      cases s with
      | prover s sv kt =>
        refine text_read (g := UserReply.set) ?_
        intro ws hws
        have hr : FullSetTyped ws ∧ OMap.Sorted ws.signers :=
          (hf _ _ hs).1 .currentSet (.workerSet ws) (by simp only [stored, hws, Option.map_some])
        refine ⟨fits_value (G := G) hG.unread (v := .workerSet ws) hr, ?_⟩
        simp only [UserQuestion.read]
        rw [asWorkerSet_json hT hr.1 hr.2]
        rfl
      | _ => rfl
  | registeredSet id =>
    rw [query_eq (fits_userQuestion G.T _)]
    unfold UserQuestion.truth
    cases hs : w a with
    | none => rfl
    | some s =>
      show ((replies G P w a s (askRegisteredSet id)).map Json.render).map _ = _
      rw [replies_registeredSet]
      cases s with
      | multisig s =>
        refine text_read (g := UserReply.set) ?_
        intro ws hws
        have hr : FullSetTyped ws ∧ OMap.Sorted ws.signers :=
          (hf _ _ hs).1 (.registeredSet id) (.workerSet ws) (by simp only [stored, hws, Option.map_some])
        refine ⟨fits_value (G := G) hG.unread (v := .workerSet ws) hr, ?_⟩
        simp only [UserQuestion.read]
        rw [asWorkerSet_json hT hr.1 hr.2]
        rfl
      | _ => rfl
  | service n =>
    rw [query_eq (fits_userQuestion G.T _)]
    unfold UserQuestion.truth
    cases hs : w a with
    | none => rfl
    | some s =>
      show ((replies G P w a s (askService n)).map Json.render).map _ = _
      rw [replies_service]
      cases s with
      | registry s =>
        refine text_read (g := UserReply.service n) ?_
        intro sv hsv
        have hr : sv.minBond ≤ u128Max ∧ sv.unbondingDays ≤ u16Max :=
          (hf _ _ hs).1 (.service n) (.service n sv) (by simp only [stored, hsv, Option.map_some])
        refine ⟨fits_service hG.unread n hr.2, ?_⟩
        simp only [UserQuestion.read]
        rw [asStoredService_json hT hG.unread hr]
        rfl
      | _ => rfl

/-- what is answered to a question for a worker -/
theorem worker_answer (hG : Sound G) {w : World} (hf : WorldFits G.L w) (a : Addr) (n x : Str) :
    (query G P w a ((UserQuestion.worker n x).json G.T).render).map ((UserQuestion.worker n x).readText G) =
      ((UserQuestion.worker x n).truth G.T P w a).map some := by
  have hT := hG.faithful
  rw [query_eq (fits_userQuestion G.T _)]
  unfold UserQuestion.truth
  cases hs : w a with
  | none => rfl
  | some s =>
    show ((replies G P w a s (askWorker n x)).map Json.render).map _ = _
    rw [replies_worker]
    cases s with
    | registry s =>
      dsimp only
      refine (text_read (g := UserReply.worker) ?_).trans ?_
      · intro v hv
        obtain ⟨y, hy, hv⟩ := Option.bind_eq_some_iff.mp hv
        have hr : BondingTyped v.bonding :=
          (hf _ _ hs).1 (.worker x y) (.worker v) (by simp only [stored, hv, Option.map_some])
        have hfit := fits_value (G := G) hG.unread (v := .worker v) hr
        refine ⟨hfit, ?_⟩
        simp only [UserQuestion.read]
        rw [asWorker_json hT hr]
        rfl
      · cases G.T.parse n <;> rfl
    | _ => rfl

/-! ### Histories -/

/-- a contract of the kind of a storage -/
def kindOf : Store → Chain.Kind
  | .verifier s => .verifier s.config
  | .gateway s => .gateway s.config
  | .router s => .router s.config
  | .nexus s => .nexus s.config
  | .registry s => .registry s.governance
  | .rewards s => .rewards s.config s.params 0
  | .multisig s => .multisig s.config
  | .prover s sv kt => .prover s.config sv kt

theorem party_kindOf (s : Store) : party (kindOf s).init = party s := by cases s <;> rfl

theorem exec_fits (hG : Sound G) (hX : Octets P.X) {w : World} (hw : WorldTyped G.L w) (hf : WorldFits G.L w) {t : TextTx}
    (hb : InRange t) {w1 : World} {es : List Entry} (h : execText G P w t = .ok (w1, es)) :
    WorldTyped G.L w1 ∧ WorldFits G.L w1 := by
  have h1 := says_partial (G := G) (σ := fun a => (w a).map kindOf) (w := w)
    (fun a s hs => by unfold partyAt; simp only [hs, Option.map_some]; rw [party_kindOf]) t hb
  have hs := exec_same (P := P) hG hX.keccak (σ := fun a => (w a).map party) (fun _ => rfl) hw hb h1
  rw [h] at hs
  cases hp : Chain.exec P w (meaning G (fun a => (w a).map kindOf) t) with
  | error e' => rw [hp] at hs; exact hs.elim
  | ok y =>
    obtain ⟨w1', es'⟩ := y
    rw [hp] at hs
    obtain ⟨rfl, rfl, -, hw1, ht1⟩ := hs
    refine ⟨hw1, ?_⟩
    obtain ⟨e1, e2, e3, e4, hm⟩ := h1
    unfold Chain.exec at hp
    split at hp
    · simp at hp
    exact run_fits hX (by rw [← e2]; exact hb.height) (by rw [← e2]; exact hb.time) _ _ hw hf (says_coins hm) hp ht1

theorem init_fits {p : Party} {text : Str} {o : Order} {h : Nat} (ho : readOrder G p text = some o) (hh : h ≤ u64Max) :
    StoreFits G.L (o.kind h).init := by
  have hf : Founded G (fun x => if x = 0 then some (o.kind h) else none) := by
    intro a k hk
    dsimp only at hk
    split at hk
    · cases hk; exact ⟨p, text, o, h, ho, hh, rfl⟩
    · cases hk
  exact fits_genesis (C104_setup hf).2.1 0 _ rfl

theorem deployed_fits (hG : Sound G) (hX : Octets P.X) : ∀ (ts : List TextStep) {w : World}, (∀ s ∈ ts, StepInRange s) →
    WorldTyped G.L w → WorldFits G.L w →
    WorldTyped G.L (runCalls (stepText G P) w ts) ∧ WorldFits G.L (runCalls (stepText G P) w ts)
  | [], w, _, hw, hf => ⟨hw, hf⟩
  | s :: t, w, hb, hw, hf => by
    have hb' : ∀ x ∈ t, StepInRange x := fun x hx => hb x (List.mem_cons_of_mem _ hx)
    have hb1 := hb s (List.mem_cons_self ..)
    rw [runCalls_cons]
    cases hx : stepText G P w s with
    | error e => exact deployed_fits hG hX t hb' hw hf
    | ok y =>
      obtain ⟨w1, es⟩ := y
      have key : WorldTyped G.L w1 ∧ WorldFits G.L w1 := by
        cases s with
        | tx x => exact exec_fits hG hX hw hf hb1 hx
        | found a p h text =>
          simp only [stepText] at hx
          split at hx
          · simp at hx
          rename_i o ho
          split at hx
          · simp at hx
          simp only [Except.ok.injEq, Prod.mk.injEq] at hx
          rw [← hx.1]
          exact ⟨hw.set (init_typed ho hb1), hf.set (init_fits ho hb1)⟩
      exact deployed_fits hG hX t hb' key.1 key.2

end Amp.Wire
