import Verif.Wire.UsersProps
import Verif.Wire.DeployTextExamples
import Verif.Wire.StoredExamples
import Verif.Chain.ContentExample
import Verif.Chain.LogExample

/-!
# Concrete cases for C111
-/

namespace Amp.Wire

open Amp.Chain (exP exSetup exMsg1 exMsg3 exRegisters svc sui)

theorem exP_four : FourIds exP.X := by
  intro d k s r h
  have h : (some 0 : Option Nat) = some r := h
  cases h
  decide

/-! ### Questions and answers -/

/-- the answer to a question, as a text -/
def exUserAnswer (a : Addr) (q : UserQuestion) : Option Str :=
  query exTexture exP (textDeployedWorld exTexture exP exSteps) a (q.json exTexture.T).render

theorem exUserAnswer_plain (a : Addr) (q : UserQuestion) :
    exUserAnswer a q = query exTexture exP (Chain.deployedWorld exP exPlainSteps) a (q.json exTexture.T).render := by
  unfold exUserAnswer
  rw [exSteps_world]

/-- what is asked, letter by letter -/
example : ((UserQuestion.proof 1).json exTexture.T).render = "{\"get_proof\":{\"multisig_session_id\":\"1\"}}".toList ∧
    ((UserQuestion.chainInfo sui).json exTexture.T).render = "{\"get_chain_info\":\"sui\"}".toList ∧
    (UserQuestion.currentSet.json exTexture.T).render = "\"get_worker_set\"".toList := by decide +kernel

/-- what the router says about a chain -/
example : exUserAnswer 14 (.chainInfo sui) = some
    "{\"name\":\"sui\",\"gateway\":{\"address\":\"axelar117\"},\"frozen_status\":0}".toList := by
  rw [exUserAnswer_plain]; decide +kernel

/-- the worker set of the prover: one of `C111_answer_partial`'s cases, read back -/
example : (exUserAnswer 19 .currentSet).map (UserQuestion.currentSet.readText exTexture) =
    some (some (.set Chain.exInstalled)) := by
  unfold exUserAnswer
  rw [C111_answer_partial ex_sound exP_octets exP_four exSteps exSteps_range 19 .currentSet trivial (fun _ _ h => by cases h)]
  have h : Chain.currentSet (textDeployedWorld exTexture exP exSteps) 19 = some Chain.exInstalled := by
    rw [exSteps_world]; decide +kernel
  generalize textDeployedWorld exTexture exP exSteps = w at h ⊢
  have e : UserQuestion.truth exTexture.T exP w 19 .currentSet = (Chain.currentSet w 19).map .set := by
    simp only [UserQuestion.truth, Chain.currentSet]
    cases w 19 with
    | none => rfl
    | some s => cases s <;> rfl
  rw [e, h]
  rfl

/-- two questions with different texts -/
example : ((UserQuestion.proof 1).json exTexture.T).render ≠ ((UserQuestion.proof 2).json exTexture.T).render :=
  fun h => by
    have := C111_distinct ex_sound (.proof 1) (.proof 2) (show (1 : Nat) ≤ u64Max by decide) (show (2 : Nat) ≤ u64Max by decide) h
    cases this

/-- C111 is false of questions for a worker: worker 5 is a worker of the service, but to the question for it there is
no answer -/
theorem C111_counterexample : (∀ s ∈ exSteps, StepInRange s) ∧
    ((UserQuestion.worker svc (exTexture.T.text 5)).truth exTexture.T exP (textDeployedWorld exTexture exP exSteps) 10).isSome = true ∧
    query exTexture exP (textDeployedWorld exTexture exP exSteps) 10
      ((UserQuestion.worker svc (exTexture.T.text 5)).json exTexture.T).render = none := by
  refine ⟨exSteps_range, ?_, ?_⟩ <;> rw [exSteps_world]
  · decide +kernel
  · decide +kernel

/-- with the arguments exchanged there is one -/
example : (exUserAnswer 10 (.worker (exTexture.T.text 5) svc)).isSome = true := by
  rw [exUserAnswer_plain]; decide +kernel

/-! ### The text of a proof -/

/-- the transactions that succeeded -/
def exDone : List Chain.Tx := Chain.succeeded exP exPlainSteps

theorem exDone12 : (Chain.verifierLog 12 (Chain.log exP exSetup exDone)).map Chain.exView =
    [(13, .verifyMessages [exMsg1, Chain.exMsg2], some [5, 6, 7], some Chain.exStarted),
     (5, .vote 1 [.succeededOnChain, .succeededOnChain], some [5, 6, 7], some (.voted 1 5)),
     (6, .vote 1 [.succeededOnChain, .succeededOnChain], some [5, 6, 7], some (.voted 1 6)),
     (9, .endPoll 1, some [5, 6, 7], some (.pollEnded 1 [some .succeededOnChain, some .succeededOnChain]))] := by
  decide +kernel

theorem exDone16 : (Chain.verifierLog 16 (Chain.log exP exSetup exDone)).map Chain.exView = [] := by decide +kernel

theorem exDoneHonest (vc : VV.Config) (w : Addr) (hw : w = 5 ∨ w = 6) :
    Chain.exRawEvm.Honest vc 12 (Chain.verifierLog 12 (Chain.log exP exSetup exDone)) w := by
  refine Chain.evm_honest exDone12 (ev := Chain.exStarted) ?_ ?_ ?_ ?_
  · constructor <;> intro x hx <;> (simp [Chain.exRawEnv] at hx; try (subst hx; decide))
  · exact List.mem_cons_self ..
  · rcases hw with rfl | rfl <;> decide +kernel
  · intro h r hr
    simp only [Chain.exRawEnv, Option.some.injEq] at hr
    split at hr
    · simpa using hr.symm
    · simp at hr

theorem exDoneWatched : Chain.AllWatched exP exSetup (Chain.log exP exSetup exDone) 14 Chain.exRawSource :=
  Chain.watched_of (by rw [exDone12]; rfl) exDone16 exDoneHonest

theorem exDoneDistinct : Chain.SetsDistinctAt exP (Chain.log exP exSetup exDone) 18 :=
  Chain.setsDistinctAt_of (sets := [Chain.exInstalled]) (by decide +kernel) (by decide +kernel)

theorem exDoneApart : Chain.BatchIdsApart exP exSetup (Chain.log exP exSetup exDone) 19 Chain.exProver svc .ecdsa :=
  Chain.batchIdsApart_of (n := 2) (d := 3) (by decide +kernel) [(some Chain.exInstalled, []),
    (none, [exMsg1, exMsg3]), (some { Chain.exInstalled with createdAt := 9 }, [exMsg1, exMsg3])] (by decide +kernel) (by decide +kernel)

theorem exDoneGateways : ∀ e ∈ Chain.log exP exSetup exDone, e.p.target = 14 → ∀ n g,
    e.p.msg = .router (.registerChain n g) ∨ e.p.msg = .router (.upgradeGateway n g) →
    ∃ gc vc, exSetup g = some (.gateway gc) ∧ exSetup gc.verifier = some (.verifier vc) := by
  intro e he _ n g hm
  have key : (Chain.log exP exSetup exDone).all (fun e => exRegisters e.p.msg) = true := by decide +kernel
  have h := List.all_eq_true.mp key e he
  have hg : g = 13 ∨ g = 17 := by
    rcases hm with hm | hm <;> rw [hm] at h <;> exact of_decide_eq_true h
  rcases hg with rfl | rfl
  · exact ⟨_, _, rfl, rfl⟩
  · exact ⟨_, _, rfl, rfl⟩

/-- a completed proof is read -/
theorem exProofText : ∃ text p d, exUserAnswer 19 (.proof 1) = some text ∧
    (UserQuestion.proof 1).readText exTexture text = some (.proof 1 p) ∧ p.status = .completed d ∧
    p.messageIds = [exMsg1.ccId, exMsg3.ccId] := by
  have key : (match exUserAnswer 19 (.proof 1) with
      | some text => match (UserQuestion.proof 1).readText exTexture text with
        | some (.proof n p) => match p.status with
          | .completed _ => decide (n = 1 ∧ p.messageIds = [exMsg1.ccId, exMsg3.ccId])
          | .pending => false
        | _ => false
      | none => false) = true := by
    rw [exUserAnswer_plain]; decide +kernel
  split at key
  · rename_i text h1
    split at key
    · rename_i n p h2
      split at key
      · rename_i d h3
        have h := of_decide_eq_true key
        rw [h.1] at h2
        exact ⟨text, p, d, h1, h2, h3, h.2⟩
      · simp at key
    · simp at key
  · simp at key

/-- `C111_proof_partial` applies to it: both messages are injected by nexus or in the logs of `eth`, and the text carries what was
signed for them -/
example : ∃ text p d cur digest signers, ∃ msgs : List Router.Message, exUserAnswer 19 (.proof 1) = some text ∧
    (UserQuestion.proof 1).readText exTexture text = some (.proof 1 p) ∧
    msgs.map (·.ccId) = [exMsg1.ccId, exMsg3.ccId] ∧ Prover.QuorumSigned exP.C cur digest signers ∧
    Prover.executeDataOf exP.X .bcs p.data cur.threshold signers = .ok d ∧
    ∀ m ∈ msgs, Chain.InjectedByNexus (Chain.log exP exSetup exDone) 15 ⟨2, 14⟩ m ∨
      Chain.LoggedAtSource exP exSetup (Chain.log exP exSetup exDone) 14 Chain.exRawSource m := by
  obtain ⟨text, p, d, h1, h2, h3, h4⟩ := exProofText
  obtain ⟨_, _, _, _, cur, digest, signers, _, _, msgs, _, _, _, _, _, x6, _, x8, x9, x10⟩ :=
    C111_proof_partial ex_sound exP_octets exP_four exSteps exSteps_range exSteps_apart exSetup exSteps_setup.symm
      (Chain.log exP exSetup exDone) (by rw [exSteps_plain]; rfl) 14 ⟨1, 1, 15⟩ ⟨2, 14⟩ rfl rfl exDoneGateways Chain.exRawSource exDoneWatched 19
      Chain.exProver svc .ecdsa rfl _ rfl _ rfl rfl exDoneDistinct exDoneApart 1 (by decide) text 1 p d h1 h2 h3
  exact ⟨text, p, d, cur, digest, signers, msgs, h1, h2, x6.symm.trans h4, x8, x9, x10⟩

end Amp.Wire
