import Verif.Prover.Signed

/-!
# Concrete histories of the prover with the multisig contract, and why C58 is false in general
-/

namespace Amp.Prover

open Amp.Encoding
open Amp.Multisig (Signature PublicKey Signer WorkerSet Crypto)
open Amp.Router (CCId Message ChainName)

/-! ### The hypotheses of C58 can be decided -/

instance (c : CCId) : Decidable (PlainId c) := by unfold PlainId; infer_instance

instance (X : Ext) (a b : Str) : Decidable (TextCollision X a b) := by unfold TextCollision; infer_instance

/-- one transaction of `OwnIds` -/
def ownIdsAt : Op → Bool
  | .prover (.constructProof ids) env =>
    match env.gateway ids with
    | .ok msgs => decide (msgs.map (·.ccId) = ids) && decide (∀ c ∈ ids, PlainId c)
    | .error _ => true
  | _ => true

theorem ownIds_of {log : List (Step Sys Op SysResp)} (h : (log.all (fun e => ownIdsAt e.call)) = true) :
    OwnIds log := by
  intro e he
  have := List.all_eq_true.mp h e he
  unfold ownIdsAt at this
  split at this
  · rename_i ids env hc
    rw [hc]
    simp only
    split at this
    · rename_i msgs hg
      rw [hg]
      simpa using this
    · rename_i x hg
      rw [hg]
      trivial
  · rename_i hc
    split
    · rename_i ids env hc'
      exact absurd hc' (hc ids env)
    · trivial

theorem noCollisions_of {X : Ext} {cfg : Config} {log : List (Step Sys Op SysResp)}
    (h : (∀ w ∈ builtSets cfg log, ∀ w' ∈ builtSets cfg log, X.wsHash w = X.wsHash w' → w = w') ∧
      (∀ ids ∈ requestedIds log, ∀ ids' ∈ requestedIds log,
        ∀ ws ∈ none :: (builtSets cfg log).map some, ∀ ws' ∈ none :: (builtSets cfg log).map some,
        ¬ TextCollision X (batchText X ids ws) (batchText X ids' ws'))) : NoCollisions X cfg log := ⟨h.1, h.2⟩

/-- the sets registered in a history -/
def registeredSets (log : List (Step Multisig.State Multisig.Call Multisig.Resp)) : List WorkerSet :=
  log.filterMap (fun st => match st.call.msg with
    | .registerWorkerSet r => match r.decode with
      | .ok ws => some ws
      | .error _ => none
    | _ => none)

theorem setsDistinct_of {X : Ext} {C : Crypto} {self : Addr} {cfg : Config} {mcfg : Multisig.Config}
    {ops : List Op} {l : List WorkerSet}
    (hl : registeredSets (Multisig.trace C (workerSetId X) mcfg
      (multisigCalls self (sysLog X C self cfg mcfg ops))) = l)
    (h : ∀ w ∈ l, ∀ w' ∈ l, workerSetId X w = workerSetId X w' → w = w') :
    SetsDistinct X C self cfg mcfg ops := by
  have key : ∀ w, Multisig.Registered (Multisig.trace C (workerSetId X) mcfg
      (multisigCalls self (sysLog X C self cfg mcfg ops))) w → w ∈ l := by
    rintro w ⟨st, hst, r, h1, h2⟩
    rw [← hl]
    refine List.mem_filterMap.mpr ⟨st, hst, ?_⟩
    rw [h1]
    simp only
    rw [h2]
  exact fun w w' h1 h2 => h w (key w h1) w' (key w' h2)

/-! ### A toy hash -/

/-- thirty-two bytes from the remainder of a polynomial in the bytes -/
def polyHash (b : Bytes) : Bytes :=
  let n := b.foldl (fun h x => (h * 65537 + x + 1) % (2 ^ 127 - 1)) 0
  (List.range 32).map (fun i => n / 256 ^ i % 256)

/-- toy functions in place of the hashes -/
def tX : Ext where
  keccak := polyHash
  wsHash ws := polyHash (ws.threshold :: ws.createdAt :: ws.signers.map Prod.fst)
  uncompress b := some b
  parseH160 _ := none
  recoveryId _ _ _ := some 0
  keccak_length b := by simp [polyHash]
  wsHash_length ws := by simp [polyHash]
  wsHash_bytes ws := by
    intro x hx
    simp only [polyHash, List.mem_map, List.mem_range] at hx
    obtain ⟨i, _, rfl⟩ := hx
    exact Nat.mod_lt _ (by decide)
  parseH160_length s b h := by simp at h

/-- keys of thirty-three bytes -/
def tEnv (workers : List Addr) (height : Nat) : Env where
  height := height
  gateway ids := .ok (ids.map exMessage)
  activeWorkers := .ok (workers.map exWorker)
  publicKey a := .ok (.ecdsa (List.replicate 33 a))
  verified _ := .ok true

/-- the prover is authorised, installs a first worker set, and starts a rotation with two messages; two of
the three workers sign -/
def tOps : List Op := [
  .multisig ⟨1, 9, .authorizeCaller 40⟩,
  .prover .updateWorkerSet (tEnv [5, 6, 7] 10),
  .prover (.constructProof [exId1, exId2]) (tEnv [5, 6, 8] 11),
  .multisig ⟨5, 12, .submitSignature 1 (List.replicate 64 5)⟩,
  .multisig ⟨7, 12, .submitSignature 1 (List.replicate 64 7)⟩,
  .prover .confirmWorkerSet (tEnv [5, 6, 8] 13),
  .prover (.constructProof [exId2]) (tEnv [5, 6, 8] 14)]

/-- the state after it -/
def tAfter : Sys := sysAfter tX Multisig.exCrypto 40 exCfg Multisig.exCfg tOps

/-- its transactions -/
def tLog : List (Step Sys Op SysResp) := sysLog tX Multisig.exCrypto 40 exCfg Multisig.exCfg tOps

/-- the sets registered in it -/
def tSets : List WorkerSet := [
  ⟨[5, 6, 7].map (fun a => (a, ⟨a, 1, .ecdsa (List.replicate 33 a)⟩)), 2, 10⟩,
  ⟨[5, 6, 8].map (fun a => (a, ⟨a, 1, .ecdsa (List.replicate 33 a)⟩)), 2, 11⟩]

theorem t_distinct : SetsDistinct tX Multisig.exCrypto 40 exCfg Multisig.exCfg tOps := by
  refine setsDistinct_of (l := tSets) ?_ ?_
  · decide +kernel
  · decide +kernel

/-- all seven transactions succeed, and the hypotheses of `C58_proof_partial` hold of this history -/
example : tLog.length = 7 ∧ SetsDistinct tX Multisig.exCrypto 40 exCfg Multisig.exCfg tOps ∧ OwnIds tLog ∧
    NoCollisions tX exCfg tLog ∧ OneRotationPerBlock tLog := by
  refine ⟨by decide +kernel, t_distinct, ownIds_of (by decide +kernel), noCollisions_of (by decide +kernel), ?_⟩
  unfold OneRotationPerBlock
  decide +kernel

/-- session 1 is completed, session 2 is pending -/
example : (match sysProof tX tAfter 1 with
      | .ok p => match p.status with
        | .completed _ => decide (p.messageIds = [exId1, exId2] ∧ p.data.commands.length = 3)
        | .pending => false
      | .error _ => false) = true ∧
    (match sysProof tX tAfter 2 with
      | .ok p => decide (p.status = .pending ∧ p.messageIds = [exId2] ∧ p.data.commands.length = 1)
      | .error _ => false) = true := by decide +kernel

/-! ### C58 is false in general -/

/-- two requests for the same messages in different orders, in the same block, while a rotation is due -/
def badOps : List Op := [
  .multisig ⟨1, 9, .authorizeCaller 40⟩,
  .prover .updateWorkerSet (tEnv [5, 6, 7] 10),
  .prover (.constructProof [exId1, exId2]) (tEnv [5, 6, 8] 11),
  .prover (.constructProof [exId2, exId1]) (tEnv [5, 6, 8] 11),
  .multisig ⟨5, 12, .submitSignature 1 (List.replicate 64 5)⟩,
  .multisig ⟨7, 12, .submitSignature 1 (List.replicate 64 7)⟩]

/-- the state after them -/
def badAfter : Sys := sysAfter tX Multisig.exCrypto 40 exCfg Multisig.exCfg badOps

/-- C58 is false in general: after these requests, session 1 is completed, but the completed proof that
`GetProof` returns for it shows a content with another digest than the one signed in the session. There are
no hash collisions, and the gateway answers with the messages asked for. -/
theorem C58_counterexample :
    (∃ p d se digest, sysProof tX badAfter 1 = .ok p ∧ p.status = .completed d ∧
      badAfter.multisig.sessions 1 = some se ∧ dataDigest tX exCfg.encoder p.data = .ok digest ∧
      digest ≠ se.msg) ∧
    OwnIds (sysLog tX Multisig.exCrypto 40 exCfg Multisig.exCfg badOps) ∧
    NoCollisions tX exCfg (sysLog tX Multisig.exCrypto 40 exCfg Multisig.exCfg badOps) := by
  refine ⟨?_, ownIds_of (by decide +kernel), noCollisions_of (by decide +kernel)⟩
  have key : (match sysProof tX badAfter 1 with
      | .ok p => match p.status, badAfter.multisig.sessions 1, dataDigest tX exCfg.encoder p.data with
        | .completed _, some se, .ok digest => decide (digest ≠ se.msg)
        | _, _, _ => false
      | .error _ => false) = true := by decide +kernel
  split at key
  · rename_i p hp
    split at key
    · rename_i d se digest h1 h2 h3
      exact ⟨p, d, se, digest, hp, h1, h2, h3, of_decide_eq_true key⟩
    · simp at key
  · simp at key

end Amp.Prover
