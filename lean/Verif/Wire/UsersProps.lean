import Verif.Wire.UsersLemmas
import Verif.Chain.ContentProps
import Verif.Chain.LogProps

/-!
# C111: users get true answers to their questions, as text

And so the properties of the whole system hold of what a relayer reads: the text of a proof.
-/

namespace Amp.Wire

open Amp.Encoding (Bytes)
open Amp.Router (ChainName CCId Message)
open Amp.Chain (Params World Store answer)
open Amp.Prover (QuorumSigned IsBatch dataDigest executeDataOf)

variable {G : Texture} {P : Params}

/-- C111, for all questions but those for a worker of a service: from a chain without contracts, whatever texts are sent to it,
whatever a user asks a contract by text: the answer is a text that is read as what the contract stores; and there is an answer
if and only if the contract is of the kind that is asked for and has something to say. -/
theorem C111_answer_partial (hG : Sound G) (hX : Octets P.X) (h4 : FourIds P.X) (ts : List TextStep)
    (hb : ∀ s ∈ ts, StepInRange s) (a : Addr) (q : UserQuestion) (hq : q.Typed G.L) (hn : ∀ n x, q ≠ .worker n x) :
    (query G P (textDeployedWorld G P ts) a (q.json G.T).render).map (q.readText G) =
      (q.truth G.T P (textDeployedWorld G P ts) a).map some := by
  obtain ⟨hw, hf⟩ := deployed_fits (P := P) hG hX ts (w := Chain.nothing) hb (fun _ _ h => by cases h) (fun _ _ h => by cases h)
  exact user_answer hG hX h4 hw hf a q hq hn

/-- C111, for a worker of a service: the answer is the true answer to the question with service and worker exchanged. -/
theorem C111_worker (hG : Sound G) (hX : Octets P.X) (ts : List TextStep) (hb : ∀ s ∈ ts, StepInRange s) (a : Addr)
    (n x : Str) :
    (query G P (textDeployedWorld G P ts) a ((UserQuestion.worker n x).json G.T).render).map
        ((UserQuestion.worker n x).readText G) =
      ((UserQuestion.worker x n).truth G.T P (textDeployedWorld G P ts) a).map some := by
  obtain ⟨hw, hf⟩ := deployed_fits (P := P) hG hX ts (w := Chain.nothing) hb (fun _ _ h => by cases h) (fun _ _ h => by cases h)
  exact worker_answer hG hf a n x

/-- C111: two questions with the same text are the same question. -/
theorem C111_distinct (hG : Sound G) (q r : UserQuestion) (hq : q.Typed G.L) (hr : r.Typed G.L)
    (h : (q.json G.T).render = (r.json G.T).render) : q = r := by
  have hj : q.json G.T = r.json G.T := by
    have h1 := fromStr_render G.finite (fits_userQuestion G.T q)
    rw [h, fromStr_render G.finite (fits_userQuestion G.T r)] at h1
    exact (Option.some.inj h1).symm
  have other : ∀ x : Question, ∀ y : UserQuestion, (∀ z, y ≠ .contract z) → x.json G.T ≠ y.json G.T := by
    intro x y hy he
    cases y with
    | contract z => exact hy z rfl
    | _ =>
      cases x <;>
        simp only [Question.json, askIsVerified, askIsSetVerified, askGetMessages, askActiveWorkers, askPublicKey,
          askGetMultisig, UserQuestion.json, askChainInfo, askProofJson, askProverSet, askRegisteredSet, askService, askWorker,
          Json.obj.injEq, List.cons.injEq, Prod.mk.injEq, and_true, reduceCtorEq] at he <;>
        exact absurd he.1 (by decide)
  by_cases hcq : ∃ x, q = .contract x
  · obtain ⟨x, rfl⟩ := hcq
    by_cases hcr : ∃ y, r = .contract y
    · obtain ⟨y, rfl⟩ := hcr
      rw [C96_distinct hG x y hq hr h]
    · exact absurd hj (other x r (fun z hz => hcr ⟨z, hz⟩))
  · by_cases hcr : ∃ y, r = .contract y
    · obtain ⟨y, rfl⟩ := hcr
      exact absurd hj.symm (other y q (fun z hz => hcq ⟨z, hz⟩))
    · cases q <;> cases r <;>
        first
        | exact absurd ⟨_, rfl⟩ hcq
        | exact absurd ⟨_, rfl⟩ hcr
        | skip
      all_goals
        simp only [UserQuestion.json, askChainInfo, askProofJson, askProverSet, askRegisteredSet, askService, askWorker,
          Json.obj.injEq, List.cons.injEq, Prod.mk.injEq, and_true, true_and, Json.str.injEq, reduceCtorEq] at hj
      all_goals
        first
        | exact absurd hj.1 (by decide)
        | rw [hj]
        | rw [hj.1, hj.2]
        | skip
      · rename_i x y
        have h1 := asUint_jsonUint (max := u64Max) hq
        rw [hj, asUint_jsonUint (max := u64Max) hr] at h1
        rw [Option.some.inj h1]
      · rfl

/-- C111 with C109 and C110: what a relayer reads.  From a chain without contracts, whatever texts are sent to it: if the router,
its nexus gateway, the gateways registered there, their verifiers, the prover at `Q` and its multisig contract are contracts of
this repository, if enough workers of every poll run the daemon with truthful nodes, and no two worker sets and no two batches
with a transfer share an id: the text of a completed proof carries the execute data of content that a quorum of the worker set
signed, which was the prover's when signatures were asked for; and it approves exactly the messages whose ids it shows,
each injected by nexus or in a log of the chain that its id names, and nothing else but possibly the transfer to a new
worker set. -/
theorem C111_proof_partial (hG : Sound G) (hX : Octets P.X) (h4 : FourIds P.X) (ts : List TextStep)
    (hb : ∀ s ∈ ts, StepInRange s) (ha : TextApart G ts) (setup : Chain.Setup) (hset : setup = textSetup G ts)
    (l : List Chain.Entry) (hl : l = Chain.log P setup (Chain.succeeded P (steps G ts)))
    (R : Addr) (rc : Router.Config) (nc : Nexus.Config)
    (hR : setup R = some (.router rc)) (hN : setup rc.nexusGateway = some (.nexus nc))
    (hg : ∀ e ∈ l, e.p.target = R → ∀ n g,
      e.p.msg = .router (.registerChain n g) ∨ e.p.msg = .router (.upgradeGateway n g) →
      ∃ gc vc, setup g = some (.gateway gc) ∧ setup gc.verifier = some (.verifier vc))
    (source : Addr → Chain.Source) (hwat : Chain.AllWatched P setup l R source)
    (Q : Addr) (pc : Prover.Config) (sv : Str) (kt : Multisig.KeyType) (hQ : setup Q = some (.prover pc sv kt))
    (mc : Multisig.Config) (hM : setup pc.multisig = some (.multisig mc)) (gc : Gateway.Config)
    (hga : setup pc.gateway = some (.gateway gc)) (hr : gc.router = R)
    (hd : Chain.SetsDistinctAt P l pc.multisig) (hi : Chain.BatchIdsApart P setup l Q pc sv kt)
    (sid : Nat) (hsid : sid ≤ u64Max) (text : Str) (sid' : Nat) (p : Prover.Proof) (d : Bytes)
    (hask : query G P (textDeployedWorld G P ts) Q ((UserQuestion.proof sid).json G.T).render = some text)
    (hread : (UserQuestion.proof sid).readText G text = some (.proof sid' p)) (hc : p.status = .completed d) :
    sid' = sid ∧ ∃ l₁ e l₂ cur digest signers b ws msgs,
      l = l₁ ++ e :: l₂ ∧ e.p.target = Q ∧ Chain.currentSet (Chain.worldOf P setup l₁) Q = some cur ∧
      IsBatch P.X pc ws msgs b ∧ p.data = b.data ∧ p.messageIds = msgs.map (·.ccId) ∧
      dataDigest P.X pc.encoder p.data = .ok digest ∧ QuorumSigned P.C cur digest signers ∧
      executeDataOf P.X pc.encoder p.data cur.threshold signers = .ok d ∧
      ∀ m ∈ msgs, Chain.InjectedByNexus l rc.nexusGateway nc m ∨ Chain.LoggedAtSource P setup l R source m := by
  subst hset hl
  obtain ⟨h1, -, -, -, hv⟩ := C105_history (P := P) hG hX.keccak ts hb ha
  have hw : Chain.Wired (textSetup G ts) (Chain.log P (textSetup G ts) (Chain.succeeded P (steps G ts))) R rc nc :=
    ⟨hR, hN, fun e he ht n g hm => by
      obtain ⟨gc, vc, x1, x2⟩ := hg e he ht n g hm
      exact ⟨gc, vc, x1, x2, hv _ _ x2⟩⟩
  have hans := C111_answer_partial hG hX h4 ts hb Q (.proof sid) hsid (fun _ _ h => by cases h)
  rw [hask, Option.map_some, hread] at hans
  unfold UserQuestion.truth at hans
  dsimp only at hans
  cases hp : Chain.askProof P (textDeployedWorld G P ts) Q sid with
  | error e => rw [hp] at hans; cases hans
  | ok p' =>
    rw [hp] at hans
    simp only [answer, Option.map_some, Option.some.injEq, UserReply.proof.injEq] at hans
    obtain ⟨rfl, rfl⟩ := hans
    rw [h1] at hp
    refine ⟨rfl, ?_⟩
    obtain ⟨l₁, e, l₂, cur, digest, signers, b, ws, msgs, x1, x2, x3, x4, x5, x6, x7, x8, x9, x10⟩ :=
      Chain.C109_content_partial P _ _ R rc nc hw Q pc sv kt hQ mc hM gc hga hr hd hi sid' p d hp hc
    exact ⟨l₁, e, l₂, cur, digest, signers, b, ws, msgs, x1, x2, x3, x4, x5, x6, x7, x8, x9, fun m hm =>
      (x10 m hm).imp_right (fun h => Chain.logged_of_emitted (Chain.emitted_of_source (Chain.inv P _ _) hw hwat h))⟩

end Amp.Wire
