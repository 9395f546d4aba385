import Verif.Wire.JoinTextProps
import Verif.Wire.AgainExample
import Verif.Chain.JoinExample

/-!
# Concrete cases for C116: worker 8 of the history of `RotateExample` joins with the texts of its daemon
-/

namespace Amp.Wire

open Amp.Chain (Entry exP exTx svc sui Joined stands_of exAuthorised_of exChangesKey exChangesKey_of exTofnd exDaemonCfg cmdPending)

/-- what the commands of worker 8 send -/
def joinBond : Ampd.CmdTx := ⟨8, 10, [("axl".toList, 10)], .registry (.bondWorker svc)⟩
def joinDeclare : Ampd.CmdTx := ⟨8, 10, [], .registry (.declareChainSupport svc [sui])⟩
def joinRegister : Ampd.CmdTx := ⟨8, 18, [], .multisig (.registerPublicKey .ecdsa (List.replicate 33 8))⟩

def joinBondTx : Chain.Tx := exTx 8 21 10 (.registry (.bondWorker svc)) [("axl".toList, 10)]
def joinDeclareTx : Chain.Tx := exTx 8 21 10 (.registry (.declareChainSupport svc [sui]))
def joinRegisterTx : Chain.Tx := exTx 8 22 18 (.multisig (.registerPublicKey .ecdsa (List.replicate 33 8)))

/-- `C116_bond` -/
example : ∃ x, execText exTexture exP (textDeployedWorld exTexture exP (rotUpTo 7)) (written exTexture joinBondTx) = .ok x := by
  have hsucc := rot_succ (n := 7) (tx := joinBondTx) rfl
  refine (C116_bond (P := exP) ex_sound exP_bytes (rotUpTo 7) (written exTexture joinBondTx) (by rw [← hsucc]; exact rot_range 8)
    (by rw [← hsucc]; exact rot_apart 8) 10 1 (by rw [rot_setup]; rfl) Chain.exLib exDaemonCfg rfl (exTofnd 8) none svc "axl".toList 10
    joinBond rfl ⟨10, "axl".toList, 1⟩ ?_ rfl (by decide) ?_ ⟨rfl, rfl, by decide⟩).1
  · rw [rot_log]
    exact ⟨(Chain.deployedLog exP (rotPlain 7))[0]'(by decide +kernel), List.getElem_mem _, by decide +kernel, by decide +kernel⟩
  · intro s hs
    rw [rot_world] at hs
    have key : (match Chain.deployedWorld exP (rotPlain 7) 10 with
        | some (.registry s) => decide (Registry.stakeOf s svc 8 + 10 ≤ u128Max)
        | _ => true) = true := by decide +kernel
    rw [hs] at key
    exact of_decide_eq_true key

/-- `C116_declare` -/
example : ∃ x, execText exTexture exP (textDeployedWorld exTexture exP (rotUpTo 8)) (written exTexture joinDeclareTx) = .ok x := by
  have hsucc := rot_succ (n := 8) (tx := joinDeclareTx) rfl
  refine (C116_declare (P := exP) ex_sound exP_bytes (rotUpTo 8) (written exTexture joinDeclareTx) (by rw [← hsucc]; exact rot_range 9)
    (by rw [← hsucc]; exact rot_apart 9) 10 1 (by rw [rot_setup]; rfl) Chain.exLib exDaemonCfg rfl (exTofnd 8) none svc [sui]
    ?_ joinDeclare rfl ?_ ⟨rfl, rfl, by decide⟩).1
  · intro x hx
    obtain rfl : x = sui := by simpa using hx
    exact ⟨by decide, by decide, by decide⟩
  · rw [rot_log]
    exact ⟨(Chain.deployedLog exP (rotPlain 8))[8]'(by decide +kernel), List.getElem_mem _, by decide +kernel,
      Or.inl ⟨by decide +kernel, by decide +kernel⟩⟩

/-- `C116_register` -/
example : ∃ x, execText exTexture exP (textDeployedWorld exTexture exP (rotUpTo 11)) (written exTexture joinRegisterTx) = .ok x := by
  have hsucc := rot_succ (n := 11) (tx := joinRegisterTx) rfl
  refine (C116_register (P := exP) ex_sound exP_bytes (rotUpTo 11) (written exTexture joinRegisterTx)
    (by rw [← hsucc]; exact rot_range 12) (by rw [← hsucc]; exact rot_apart 12) 18 ⟨1, 11, 5⟩ (by rw [rot_setup]; rfl) Chain.exLib
    exDaemonCfg rfl (exTofnd 8) none ?_ joinRegister rfl ⟨rfl, rfl, by decide⟩).1
  intro k hk
  have : k = List.replicate 33 8 := (Option.some.inj hk).symm
  rw [this]
  unfold IsBytes
  decide

theorem join_bonded : Chain.Stands (Chain.deployedLog exP (rotPlain 12)) (· = cmdPending joinBond) (Chain.Unbonds 10 svc 8) :=
  stands_of 8 (fun p => decide (p = cmdPending joinBond))
    (fun p => decide (p.sender = 8 ∧ p.target = 10 ∧ p.msg = .registry (.unbondWorker svc)))
    (fun p h => of_decide_eq_true h) (fun p h => decide_eq_true h) (by decide +kernel) (by decide +kernel)

theorem join_registered : Chain.Stands (Chain.deployedLog exP (rotPlain 12)) (· = cmdPending joinRegister) (Chain.ChangesKey 18 8) :=
  stands_of 12 (fun p => decide (p = cmdPending joinRegister)) (exChangesKey 8) (fun p h => of_decide_eq_true h)
    (fun p h => exChangesKey_of h) (by decide +kernel) (by decide +kernel)

set_option maxRecDepth 10000 in
/-- `C116_joined` -/
theorem join_joined : Joined (textDeployedLog exTexture exP (rotUpTo 12)) 10 18 svc sui 8 (List.replicate 33 8) ∧
    (∃ reply ws x, query exTexture exP (textDeployedWorld exTexture exP (rotUpTo 12)) 10
        ((UserQuestion.contract (.activeWorkers svc sui)).json exTexture.T).render = some reply ∧
      (UserQuestion.contract (.activeWorkers svc sui)).readText exTexture reply = some (.contract (.workers ws)) ∧
      x ∈ ws ∧ x.address = 8) ∧
    ∃ reply, query exTexture exP (textDeployedWorld exTexture exP (rotUpTo 12)) 18
        ((UserQuestion.contract (.publicKey 8 .ecdsa)).json exTexture.T).render = some reply ∧
      (UserQuestion.contract (.publicKey 8 .ecdsa)).readText exTexture reply = some (.contract (.key (.ecdsa (List.replicate 33 8)))) :=
  C116_joined (P := exP) ex_sound exP_octets exP_four (rotUpTo 12) (rot_range 12) (rot_apart 12) 10 1 18 ⟨1, 11, 5⟩
    (by rw [rot_setup]; rfl) (by rw [rot_setup]; rfl) Chain.exLib exDaemonCfg rfl rfl (List.replicate 33 8) (exTofnd 8) (exTofnd 8)
    (exTofnd 9) none none (some (List.replicate 33 8)) rfl rfl rfl svc "axl".toList 10 [sui] joinBond joinDeclare joinRegister rfl rfl rfl
    ⟨10, "axl".toList, 1⟩
    (by rw [rot_log]; exact ⟨(Chain.deployedLog exP (rotPlain 12))[0]'(by decide +kernel), List.getElem_mem _, by decide +kernel,
      by decide +kernel⟩) (by decide)
    (by rw [rot_log]; exact join_bonded)
    (by rw [rot_log]; exact ⟨(Chain.deployedLog exP (rotPlain 12))[9]'(by decide +kernel), List.getElem_mem _, by decide +kernel⟩)
    sui (by decide) ⟨by decide, by decide, by decide⟩
    (by rw [rot_log]; exact exAuthorised_of 10 (by decide +kernel) (by decide +kernel))
    (by rw [rot_log]; exact join_registered)

/-- the log before the poll -/
def joinBefore : List Entry := (Chain.deployedLog exP (rotPlain 14)).take 15

theorem join_before : Joined joinBefore 10 18 svc sui 8 (List.replicate 33 8) where
  bonded := ⟨⟨10, "axl".toList, 1⟩, "axl".toList, 10,
    ⟨joinBefore[0]'(by decide +kernel), List.getElem_mem _, by decide +kernel, by decide +kernel⟩,
    by decide, stands_of 8 (fun p => decide (p = ⟨8, 10, [("axl".toList, 10)], .registry (.bondWorker svc)⟩))
      (fun p => decide (p.sender = 8 ∧ p.target = 10 ∧ p.msg = .registry (.unbondWorker svc)))
      (fun p h => of_decide_eq_true h) (fun p h => decide_eq_true h) (by decide +kernel) (by decide +kernel)⟩
  declared := ⟨joinBefore[9]'(by decide +kernel), List.getElem_mem _, by decide +kernel,
    by decide +kernel, [sui], by decide +kernel, by decide⟩
  authorised := exAuthorised_of 10 (by decide +kernel) (by decide +kernel)
  registered := stands_of 12
    (fun p => decide (p.sender = 8 ∧ p.target = 18 ∧ p.msg = .multisig (.registerPublicKey .ecdsa (List.replicate 33 8))))
    (exChangesKey 8) (fun p h => of_decide_eq_true h) (fun p h => exChangesKey_of h) (by decide +kernel)
    (by decide +kernel)

theorem join_long : 15 < (Chain.deployedLog exP (rotPlain 14)).length := by decide +kernel

set_option maxRecDepth 10000 in
/-- `C116_polled`: worker 8 takes part in the poll -/
example : (8 : Addr) ∈ rotMeta.participants := by
  have hsplit : Chain.deployedLog exP (rotPlain 14) = joinBefore ++ (Chain.deployedLog exP (rotPlain 14))[15]'join_long ::
      (Chain.deployedLog exP (rotPlain 14)).drop 16 := by
    unfold joinBefore
    rw [List.getElem_cons_drop, List.take_append_drop]
  have hact : (match ((Chain.deployedLog exP (rotPlain 14))[15]'join_long).act with
      | .verifier _ r => r.event
      | _ => none) = some rotStarted := by decide +kernel
  split at hact
  · rename_i c r h
    exact C116_polled (P := exP) ex_sound exP_bytes (rotUpTo 14) (rot_range 14) (rot_apart 14) 16 rotVerifier (by rw [rot_setup]; rfl)
      1 18 ⟨1, 11, 5⟩ (by rw [rot_setup]; rfl) (by rw [rot_setup]; rfl) 8 (List.replicate 33 8) joinBefore _ _
      (by rw [rot_log]; exact hsplit) join_before (by decide +kernel) c r h rotMeta (Or.inr ⟨_, _, _, hact⟩)
  · cases hact

/-- worker 5 joined before the first set -/
theorem join_joined5 : Joined (Chain.deployedLog exP (rotPlain 6)) 10 18 svc sui 5 (List.replicate 33 5) where
  bonded := ⟨⟨10, "axl".toList, 1⟩, "axl".toList, 10,
    ⟨(Chain.deployedLog exP (rotPlain 6))[0]'(by decide +kernel), List.getElem_mem _, by decide +kernel, by decide +kernel⟩,
    by decide, stands_of 1 (fun p => decide (p = ⟨5, 10, [("axl".toList, 10)], .registry (.bondWorker svc)⟩))
      (fun p => decide (p.sender = 5 ∧ p.target = 10 ∧ p.msg = .registry (.unbondWorker svc)))
      (fun p h => of_decide_eq_true h) (fun p h => decide_eq_true h) (by decide +kernel) (by decide +kernel)⟩
  declared := ⟨(Chain.deployedLog exP (rotPlain 6))[2]'(by decide +kernel), List.getElem_mem _, by decide +kernel,
    by decide +kernel, [sui], by decide +kernel, by decide⟩
  authorised := exAuthorised_of 3 (by decide +kernel) (by decide +kernel)
  registered := stands_of 5
    (fun p => decide (p.sender = 5 ∧ p.target = 18 ∧ p.msg = .multisig (.registerPublicKey .ecdsa (List.replicate 33 5))))
    (exChangesKey 5) (fun p h => of_decide_eq_true h) (fun p h => exChangesKey_of h) (by decide +kernel)
    (by decide +kernel)

set_option maxRecDepth 10000 in
/-- `C116_member` -/
example : ∃ ws reply, query exTexture exP (textDeployedWorld exTexture exP (rotUpTo 7)) 19
      (UserQuestion.currentSet.json exTexture.T).render = some reply ∧
    UserQuestion.currentSet.readText exTexture reply = some (.set ws) ∧ (5, ⟨5, 1, .ecdsa (List.replicate 33 5)⟩) ∈ ws.signers := by
  have hsucc := rot_succ (n := 6) (tx := rotFirst) rfl
  obtain ⟨ws, reply, h1, h2, h3⟩ := C116_member (P := exP) ex_sound exP_octets exP_four (rotUpTo 6) (written exTexture rotFirst)
    (by rw [← hsucc]; exact rot_range 7) (by rw [← hsucc]; exact rot_apart 7) 19 Chain.exProver svc (by rw [rot_setup]; rfl) 1
    ⟨1, 11, 5⟩ (by rw [rot_setup]; rfl) (by rw [rot_setup]; rfl) [] (write exTexture (.prover .updateWorkerSet)) rfl (by decide +kernel)
    (by decide) (by rw [rot_world]; decide +kernel) 5 (List.replicate 33 5) (by rw [rot_log]; exact join_joined5) (by
      intro ws hws
      rw [rot_world] at hws ⊢
      have h : Chain.askWorkers (Chain.deployedWorld exP (rotPlain 6)) 10 svc sui = some rotWorkers5 := by decide +kernel
      have := h.symm.trans hws
      simp only [Option.some.injEq] at this
      subst this
      exact ⟨by decide, rot_keys (by decide +kernel)⟩)
  rw [← hsucc] at h1
  exact ⟨ws, reply, h1, h2, h3⟩

end Amp.Wire
