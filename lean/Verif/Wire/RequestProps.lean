import Verif.Wire.SignedProps
import Verif.Chain.SignLemmas

/-!
# C114, continued: the text of a request for a proof starts a session
-/

namespace Amp.Wire

open Amp.Chain (Params Entry)
open Amp.Router (ChainName CCId Message)
open Amp.Multisig (WorkerSet)
open Amp.Prover (IsBatch SetOf membershipChanges dataDigest batchId)

variable {G : Texture} {P : Params}

/-- one more transaction that succeeds -/
theorem deployed_snoc (hG : Sound G) (hX : ∀ b, IsBytes (P.X.keccak b)) (ts : List TextStep) (t : TextTx)
    (hb : ∀ s ∈ ts ++ [.tx t], StepInRange s) (ha : TextApart G (ts ++ [.tx t])) {x : Chain.World × List Entry}
    (hx : Chain.exec P (Chain.worldAfter P (textSetup G ts) (Chain.succeeded P (steps G ts))) (meaning G (textSetup G ts) t) = .ok x) :
    textSetup G (ts ++ [.tx t]) = textSetup G ts ∧
    Chain.succeeded P (steps G (ts ++ [.tx t])) = Chain.succeeded P (steps G ts) ++ [meaning G (textSetup G ts) t] ∧
    textDeployedWorld G P (ts ++ [.tx t]) = x.1 ∧
    (textDeployedLog G P (ts ++ [.tx t])).map Entry.blind =
      (Chain.log P (textSetup G ts) (Chain.succeeded P (steps G ts)) ++ x.2).map Entry.blind := by
  have hbt : ∀ s ∈ ts, StepInRange s := fun s hs => hb s (List.mem_append_left _ hs)
  have hat := textApart_prefix ha
  have hset : textSetup G (ts ++ [.tx t]) = textSetup G ts := by
    funext a
    unfold textSetup
    rw [List.filterMap_append, Chain.setupOf_append]
    cases Chain.setupOf (ts.filterMap (founding G)) a <;> rfl
  obtain ⟨w1, -, -, -, -⟩ := C105_history (P := P) hG hX ts hbt hat
  obtain ⟨w2, w3, -, -, -⟩ := C105_history (P := P) hG hX _ hb ha
  have hsucc : Chain.succeeded P (steps G (ts ++ [.tx t])) =
      Chain.succeeded P (steps G ts) ++ [meaning G (textSetup G ts) t] := by
    have e1 : steps G (ts ++ [.tx t]) = steps G ts ++ [.tx (meaning G (textSetup G ts) t)] := by
      unfold steps
      rw [hset, List.filterMap_append]
      rfl
    have e2 : Chain.stepExec P (runCalls (Chain.stepExec P) Chain.nothing (steps G ts)) (.tx (meaning G (textSetup G ts) t)) =
        .ok (x.1, x.2) := by
      have e3 : runCalls (Chain.stepExec P) Chain.nothing (steps G ts) =
          Chain.worldAfter P (textSetup G ts) (Chain.succeeded P (steps G ts)) := by
        rw [← w1]
        exact (C105_text (P := P) hG hX ts hbt).1.symm
      rw [e3]
      exact hx
    unfold Chain.succeeded
    rw [e1, outs_append, outs_cons_ok _ e2, List.filterMap_append]
    rfl
  rw [hset, hsucc] at w2 w3
  refine ⟨hset, hsucc, ?_, ?_⟩
  · rw [w2]
    unfold Chain.worldAfter
    rw [runCalls_append, runCalls_cons]
    unfold Chain.worldAfter at hx
    rw [hx]
    rfl
  · rw [w3]
    congr 1
    unfold Chain.log
    rw [outs_append, List.flatMap_append]
    refine congrArg₂ (· ++ ·) rfl ?_
    unfold Chain.worldAfter at hx
    rw [outs_cons_ok _ hx]
    simp [outs]

/-- signatures, in a history up to what is hidden -/
theorem signedAt_blind {l l' : List Entry} (h : l'.map Entry.blind = l.map Entry.blind) {M : Addr} {sid : Nat} {a : Addr}
    (hs : Chain.SignedAt l M sid a) : Chain.SignedAt l' M sid a := by
  obtain ⟨e, he, c, r, b, ht, hact, h1, h2⟩ := hs
  have hbl : e.blind ∈ l'.map Entry.blind := by rw [h]; exact List.mem_map_of_mem he
  obtain ⟨e', he', hbe⟩ := List.mem_map.mp hbl
  obtain ⟨b1, b2⟩ := Chain.blind_multisig hbe hact
  exact ⟨e', he', c, r, b, by rw [b1]; exact ht, b2, h1, h2⟩

/-- C114, request: whoever sends the prover a text that asks for a proof of messages that the gateway of the chain holds gets a
signing session: the multisig contract writes the raw event of the session, for the digest of a batch that approves exactly these
messages, with a transfer to the new worker set first if enough workers changed; and the text with which the prover answers the
question for the proof shows this batch, not signed yet. -/
theorem C114_requested (hG : Sound G) (hX : Octets P.X) (h4 : FourIds P.X) (ts : List TextStep) (t : TextTx)
    (hb : ∀ s ∈ ts ++ [.tx t], StepInRange s) (ha : TextApart G (ts ++ [.tx t])) (Q : Addr) (pc : Prover.Config) (sv : Str)
    (kt : Multisig.KeyType) (hQ : textSetup G ts Q = some (.prover pc sv kt)) (mc : Multisig.Config)
    (hM : textSetup G ts pc.multisig = some (.multisig mc))
    (hd : Chain.SetsDistinctAt P (textDeployedLog G P ts) pc.multisig) (hroom : (textDeployedLog G P ts).length < u64Max)
    (funds : List Registry.Coin) (text : Str) (hmsgs : t.msgs = [(Q, funds, text)]) (ids : List CCId)
    (hread : readFor G .prover text = some (.prover (.constructProof ids))) (hgas : 1 ≤ t.gas)
    (msgs : List Message) (cur : WorkerSet) (hr : Chain.Ready (textDeployedWorld G P ts) Q pc ids msgs cur)
    (hnew : Chain.storedBatch (textDeployedWorld G P ts) Q (batchId P.X ids none) = none) (workers : List Registry.Worker)
    (hbuild : Chain.Buildable P (textDeployedWorld G P ts) Q pc sv kt t.block.height msgs cur workers) :
    ∃ new b sid digest reply, (∃ x, execText G P (textDeployedWorld G P ts) t = .ok x) ∧
      SetOf pc.signingThreshold (Chain.askKey (textDeployedWorld G P ts) pc.multisig kt) t.block.height workers new ∧
      IsBatch P.X pc (if pc.diffThreshold < membershipChanges new cur then some new else none) msgs b ∧
      dataDigest P.X pc.encoder b.data = .ok digest ∧
      Chain.AnnouncedAt (textDeployedLog G P (ts ++ [.tx t])) pc.multisig sid (Prover.workerSetId P.X cur) cur.pubKeys digest
        pc.chainName ∧
      publishMultisig G.T pc.multisig (.signingStarted sid (Prover.workerSetId P.X cur) cur.pubKeys digest pc.chainName) ∈
        eventStream G.T (textDeployedLog G P (ts ++ [.tx t])) ∧
      Chain.shownBatch (textDeployedWorld G P (ts ++ [.tx t])) Q sid = some b ∧
      Chain.registeredSet (textDeployedWorld G P (ts ++ [.tx t])) pc.multisig (Prover.workerSetId P.X cur) = some cur ∧
      query G P (textDeployedWorld G P (ts ++ [.tx t])) Q ((UserQuestion.proof sid).json G.T).render = some reply ∧
      (UserQuestion.proof sid).readText G reply = some (.proof sid ⟨b.messageIds, b.data, .pending⟩) := by
  have hbt : ∀ s ∈ ts, StepInRange s := fun s hs => hb s (List.mem_append_left _ hs)
  have hat := textApart_prefix ha
  have hin : InRange t := hb (.tx t) (by simp)
  obtain ⟨w1, w2, -, -, -⟩ := C105_history (P := P) hG hX.keccak ts hbt hat
  obtain ⟨-, -, -, hmaj, -⟩ := C104_setup (C105_text (P := P) hG hX.keccak ts hbt).2.2.2
  have hmeant : (meaning G (textSetup G ts) t).msgs = [(Q, funds, .prover (.constructProof ids))] := by
    unfold meaning
    rw [hmsgs]
    simp only [List.map_cons, List.map_nil]
    congr 3
    unfold meant
    rw [hQ]
    change (match readFor G .prover text with | some m => m | none => noise .prover) = _
    rw [hread]
  have hs : textSetup G ts t.sender = none := by
    by_contra h
    refine (ha t (by simp) t.sender ?_).1 rfl
    cases hk : textSetup G ts t.sender with
    | none => exact absurd hk h
    | some k => rw [textSetup_mono ts _ hk]; simp
  rw [w1] at hr hnew hbuild
  obtain ⟨new, b, h1, h2, w', es, sid, digest, hx, ⟨e, he, c, r, g1, g2, g3⟩, h5, h6, h7, h8, -⟩ :=
    Chain.C82_requested P (textSetup G ts) (Chain.succeeded P (steps G ts)) Q pc sv kt hQ _ _ (majority_ofPair (hmaj Q pc sv kt hQ))
      mc hM (setsDistinct_blind w2 hd) (by
        have := congrArg List.length w2
        simp only [List.length_map] at this
        omega) (meaning G (textSetup G ts) t) ids ⟨⟨funds, hmeant⟩, hs, hgas⟩ msgs cur hr hnew workers hbuild
  obtain ⟨hset, hsucc, v1, v2⟩ := deployed_snoc hG hX.keccak ts t hb ha hx
  simp only at v1 v2
  obtain ⟨e', he', hbe⟩ : ∃ e' ∈ textDeployedLog G P (ts ++ [.tx t]), e'.blind = e.blind := by
    have : e.blind ∈ (textDeployedLog G P (ts ++ [.tx t])).map Entry.blind := by
      rw [v2]; exact List.mem_map_of_mem (List.mem_append_right _ he)
    exact List.mem_map.mp this
  obtain ⟨b1, b2⟩ := Chain.blind_multisig hbe g2
  have hann : Chain.AnnouncedAt (textDeployedLog G P (ts ++ [.tx t])) pc.multisig sid (Prover.workerSetId P.X cur) cur.pubKeys digest
      pc.chainName := ⟨e', he', c, r, by rw [b1]; exact g1, b2, g3⟩
  have hfits := multisig_event_fits hG hX.keccak _ hb ha (M := pc.multisig) (mc := mc) (by rw [hset]; exact hM)
    (announced_blind (C105_history (P := P) hG hX.keccak _ hb ha).2.1 hann)
  rw [← v1] at h6 h7 h8
  obtain ⟨reply, q1, q2⟩ := asked_proof hG hX h4 _ hb Q sid hfits.1 _ h6
  refine ⟨new, b, sid, digest, reply, ⟨_, (exec_after hG hX.keccak ts hbt hat t hin).mpr hx⟩, by rw [w1]; exact h1, h2, h5, hann, ?_, h7, h8, q1, q2⟩
  unfold eventStream
  refine List.mem_flatMap.mpr ⟨e', he', ?_⟩
  rw [b2, b1, g1]
  exact List.mem_map_of_mem g3

/-- C114, signatures: the text of a valid signature for an announced session from a member of the worker set, in a transaction of its
own, is refused only if the multisig contract already took a signature of this member, or the session was completed and the time for
late signatures is over. -/
theorem C114_signed (hG : Sound G) (hX : ∀ b, IsBytes (P.X.keccak b)) (ts : List TextStep) (t : TextTx)
    (hb : ∀ s ∈ ts ++ [.tx t], StepInRange s) (ha : TextApart G (ts ++ [.tx t])) (Q : Addr) (pc : Prover.Config) (sv : Str)
    (kt : Multisig.KeyType) (hQ : textSetup G ts Q = some (.prover pc sv kt)) (mc : Multisig.Config)
    (hM : textSetup G ts pc.multisig = some (.multisig mc)) (hd : Chain.SetsDistinctAt P (textDeployedLog G P ts) pc.multisig)
    (sid : Nat) (ws : WorkerSet) (keys : List (Addr × Multisig.PublicKey)) (digest : Encoding.Bytes) (chain : ChainName)
    (hann : Chain.AnnouncedAt (textDeployedLog G P ts) pc.multisig sid (Prover.workerSetId P.X ws) keys digest chain)
    (hreg : Chain.registeredSet (textDeployedWorld G P ts) pc.multisig (Prover.workerSetId P.X ws) = some ws)
    (hfit : Ampd.Signing.totalWeight ws ≤ u256Max)
    (hR : Chain.RecordsAt P (textSetup G ts) (Chain.succeeded P (steps G ts)) mc.rewards t.block.height 2)
    (pk : Multisig.PublicKey) (hpk : (t.sender, pk) ∈ keys) (sig : Multisig.Signature) (hsig : IsBytes sig.bytes)
    (hv : Multisig.Valid P.C digest pk sig) (funds : List Registry.Coin)
    (hmsgs : t.msgs = [(pc.multisig, funds, (jsonMsg (.submitSignature sid sig.bytes)).render)]) (hgas : 2 ≤ t.gas) :
    (∃ x, execText G P (textDeployedWorld G P ts) t = .ok x) ∨
      Chain.SignedAt (textDeployedLog G P ts) pc.multisig sid t.sender ∨
      Chain.SessionOver (textDeployedWorld G P ts) pc.multisig sid t.block.height := by
  have hbt : ∀ s ∈ ts, StepInRange s := fun s hs => hb s (List.mem_append_left _ hs)
  have hat := textApart_prefix ha
  have hin : InRange t := hb (.tx t) (by simp)
  obtain ⟨w1, w2, -, -, -⟩ := C105_history (P := P) hG hX ts hbt hat
  have hann' := announced_blind w2 hann
  have hfits := multisig_event_fits hG hX ts hbt hat hM hann'
  have hmeant : (meaning G (textSetup G ts) t).msgs = [(pc.multisig, funds, .multisig (.submitSignature sid sig.bytes))] := by
    unfold meaning
    rw [hmsgs]
    simp only [List.map_cons, List.map_nil]
    congr 3
    unfold meant
    rw [hM]
    change (match readFor G .multisig (jsonMsg (.submitSignature sid sig.bytes)).render with
      | some m => m
      | none => noise .multisig) = _
    rw [C94_submit_signature hG sid sig.bytes hfits.1 hsig, if_pos rfl]
  have hs : textSetup G ts t.sender = none := by
    by_contra h
    refine (ha t (by simp) t.sender ?_).1 rfl
    cases hk : textSetup G ts t.sender with
    | none => exact absurd hk h
    | some k => rw [textSetup_mono ts _ hk]; simp
  rw [w1] at hreg
  rcases Chain.signature_taken P (textSetup G ts) (Chain.succeeded P (steps G ts)) Q pc sv kt hQ mc hM (setsDistinct_blind w2 hd) sid
    ws keys digest chain hann' hreg hfit (meaning G (textSetup G ts) t) hR pk hpk sig hv funds hmeant hs hgas with ⟨x, hx⟩ | h | h
  · exact Or.inl ⟨x, (exec_after hG hX ts hbt hat t hin).mpr hx⟩
  · exact Or.inr (Or.inl (signedAt_blind w2 h))
  · exact Or.inr (Or.inr (by rw [w1]; exact h))

end Amp.Wire
