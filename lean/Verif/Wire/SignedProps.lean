import Verif.Wire.SignedLemmas
import Verif.Wire.CarryProps

/-!
# C114, continued: signatures as texts complete the text of a proof
-/

namespace Amp.Wire

open Amp.Chain (Params Entry)
open Amp.Router (ChainName)
open Amp.Multisig (WorkerSet)
open Amp.Prover (Nameable ChainIdFits dataSize)
open Amp.Ampd.Signing (weightIn)

variable {G : Texture} {P : Params}

/-- the question for a proof, as text -/
theorem asked_proof (hG : Sound G) (hX : Octets P.X) (h4 : FourIds P.X) (ts : List TextStep) (hb : ∀ s ∈ ts, StepInRange s) (a : Addr)
    (sid : Nat) (hsid : sid ≤ u64Max) (p : Prover.Proof) (h : Chain.askProof P (textDeployedWorld G P ts) a sid = .ok p) :
    ∃ text, query G P (textDeployedWorld G P ts) a ((UserQuestion.proof sid).json G.T).render = some text ∧
      (UserQuestion.proof sid).readText G text = some (.proof sid p) := by
  have key := C111_answer_partial hG hX h4 ts hb a (.proof sid) hsid (by intro n x; simp)
  have ht : (UserQuestion.proof sid).truth G.T P (textDeployedWorld G P ts) a = some (.proof sid p) := by
    simp only [UserQuestion.truth, h, Chain.answer, Option.map_some]
  rw [ht, Option.map_some] at key
  obtain ⟨text, h1, h2⟩ := Option.map_eq_some_iff.mp key
  exact ⟨text, h1, h2⟩

/-- sessions, in a history up to what is hidden -/
theorem announced_blind {l l' : List Entry} (h : l.map Entry.blind = l'.map Entry.blind) {M : Addr} {sid : Nat} {wid : Str}
    {keys : List (Addr × Multisig.PublicKey)} {digest : Encoding.Bytes} {chain : ChainName}
    (ha : Chain.AnnouncedAt l M sid wid keys digest chain) : Chain.AnnouncedAt l' M sid wid keys digest chain := by
  obtain ⟨e, he, c, r, ht, hact, hev⟩ := ha
  have hbl : e.blind ∈ l'.map Entry.blind := by rw [← h]; exact List.mem_map_of_mem he
  obtain ⟨e', he', hbe⟩ := List.mem_map.mp hbl
  obtain ⟨b1, b2⟩ := Chain.blind_multisig hbe hact
  exact ⟨e', he', c, r, by rw [b1]; exact ht, b2, hev⟩

/-- worker sets with the same id, in a history up to what is hidden -/
theorem setsDistinct_blind {l l' : List Entry} (h : l.map Entry.blind = l'.map Entry.blind) {M : Addr}
    (hd : Chain.SetsDistinctAt P l M) : Chain.SetsDistinctAt P l' M := by
  have back : ∀ e ∈ l', ∃ e' ∈ l, e'.p = e.p := by
    intro e he
    have hbl : e.blind ∈ l.map Entry.blind := by rw [h]; exact List.mem_map_of_mem he
    obtain ⟨e', he', hbe⟩ := List.mem_map.mp hbl
    exact ⟨e', he', (congrArg Entry.p hbe : _)⟩
  intro e he e' he' h1 h2 r r' v v' g1 g2
  obtain ⟨f, hf, pf⟩ := back e he
  obtain ⟨f', hf', pf'⟩ := back e' he'
  exact hd f hf f' hf' (by rw [pf]; exact h1) (by rw [pf']; exact h2) r r' v v' (by rw [pf]; exact g1) (by rw [pf']; exact g2)

/-- C114, proofs: let a signing session be announced for a batch of the prover at `Q`.  If members of the worker set whose weight
reaches the threshold read the raw event with their daemons, and the texts that these hand to their queues are taken, then the
prover answers the text of a question for the proof with the text of a completed proof. -/
theorem C114_proved (hG : Sound G) (hX : Octets P.X) (h4 : FourIds P.X) (ts : List TextStep) (hb : ∀ s ∈ ts, StepInRange s)
    (ha : TextApart G ts) (Q : Addr) (pc : Prover.Config) (sv : Str) (kt : Multisig.KeyType)
    (hQ : textSetup G ts Q = some (.prover pc sv kt)) (mc : Multisig.Config) (hM : textSetup G ts pc.multisig = some (.multisig mc))
    (hd : Chain.SetsDistinctAt P (textDeployedLog G P ts) pc.multisig) (sid : Nat) (ws : WorkerSet)
    (keys : List (Addr × Multisig.PublicKey)) (digest : Encoding.Bytes) (chain : ChainName)
    (hann : Chain.AnnouncedAt (textDeployedLog G P ts) pc.multisig sid (Prover.workerSetId P.X ws) keys digest chain)
    (hreg : Chain.registeredSet (textDeployedWorld G P ts) pc.multisig (Prover.workerSetId P.X ws) = some ws)
    (b : Prover.Batch) (hown : Chain.shownBatch (textDeployedWorld G P ts) Q sid = some b)
    (hkeys : ∀ e ∈ ws.signers, Nameable P.X pc.encoder e.2.pubKey) (hc : ChainIdFits pc.encoder pc.destinationChainId)
    (hsize : 1000 * (1 + b.data.commands.length + ws.signers.length) + dataSize b.data < 2 ^ 31)
    (curve : Multisig.PublicKey → Option Encoding.Bytes) (S : List Addr) (hS : S ≠ []) (hq : ws.threshold ≤ weightIn ws S)
    (hsend : ∀ a ∈ S, ∃ msg height, Signs G curve pc.multisig sid (Prover.workerSetId P.X ws) keys digest chain a msg ∧
      TextTaken G P ts a pc.multisig (jsonMsg msg).render height) :
    ∃ payload text, query G P (textDeployedWorld G P ts) Q ((UserQuestion.proof sid).json G.T).render = some text ∧
      (UserQuestion.proof sid).readText G text = some (.proof sid ⟨b.messageIds, b.data, .completed payload⟩) := by
  obtain ⟨w1, w2, -, -, -⟩ := C105_history (P := P) hG hX.keccak ts hb ha
  obtain ⟨-, -, -, hmaj, -⟩ := C104_setup (C105_text (P := P) hG hX.keccak ts hb).2.2.2
  have hann' := announced_blind w2 hann
  have hfits := multisig_event_fits hG hX.keccak ts hb ha hM hann'
  have hd' := setsDistinct_blind w2 hd
  rw [w1] at hreg hown
  obtain ⟨payload, hp⟩ := Chain.signed_proof P (textSetup G ts) (Chain.succeeded P (steps G ts)) Q pc sv kt hQ _ _
    (majority_ofPair (hmaj Q pc sv kt hQ)) mc hM hd' sid ws keys digest chain hann' hreg b hown hkeys hc hsize S hS hq (by
      intro a ha'
      obtain ⟨msg, height, hs, ht⟩ := hsend a ha'
      obtain ⟨sig, hsig, rfl⟩ := signs_signature hG hfits hs
      refine taken_signature hG hX.keccak ts hb ha hM ht (b := sig) ?_
      rw [C94_submit_signature hG sid sig hfits.1 hsig, if_pos rfl])
  rw [← w1] at hp
  obtain ⟨text, t1, t2⟩ := asked_proof hG hX h4 ts hb Q sid hfits.1 _ hp
  exact ⟨payload, text, t1, t2⟩

end Amp.Wire
