import Verif.Chain.JoinProps
import Verif.Chain.RotationExample

/-!
# C90 in the concrete histories
-/

namespace Amp.Chain

open Amp.Router (ChainName)
open Amp.Encoding (Bytes)

/-- the key manager of worker `a`; the number of a worker is its mnemonic -/
def exTofnd (a : Nat) : Ampd.Tofnd Nat (Nat × Str) where
  mnemonics := [a]
  derive m uid := (m, uid)
  pub k := if k.2 = "axelar".toList then List.replicate 33 k.1 else k.1 :: k.2.map Char.toNat
  sign k digest := List.replicate 64 k.1 ++ digest.take 0

/-- accounts are read off the keys -/
def exLib : Ampd.Lib where
  account k := k.headD 0
  denom d := d ≠ []
  text a := 'a' :: showNat a

def exDaemonCfg : Ampd.DaemonCfg where
  keyUid := "axelar".toList
  serviceRegistry := 10
  handlers := [.multisig 18]

theorem stands_of {l : List Entry} {done undone : Pending → Prop} (i : Nat) (d u : Pending → Bool)
    (hd : ∀ p, d p = true → done p) (hu : ∀ p, undone p → u p = true)
    (h1 : (match l[i]? with | some e => d e.p | none => false) = true)
    (h2 : (l.drop (i + 1)).all (fun e => !u e.p) = true) : Stands l done undone := by
  split at h1
  · rename_i e he
    obtain ⟨hi, rfl⟩ := List.getElem?_eq_some_iff.mp he
    refine ⟨l.take i, l[i], l.drop (i + 1), ?_, hd _ h1, ?_⟩
    · rw [List.getElem_cons_drop, List.take_append_drop]
    · intro e' he' h
      have := List.all_eq_true.mp h2 e' he'
      rw [hu _ h] at this
      simp at this
  · simp at h1

/-- the message registers an ECDSA key of worker `a` -/
def exChangesKey (a : Addr) (p : Pending) : Bool :=
  match p.msg with
  | .multisig (.registerPublicKey .ecdsa _) => p.sender = a ∧ p.target = 18
  | _ => false

/-- the message withdraws the authorisation of worker `a` -/
def exUnauthorises (a : Addr) (p : Pending) : Bool :=
  match p.msg with
  | .registry (.unauthorizeWorkers ws n) => p.target = 10 ∧ n = svc ∧ a ∈ ws
  | _ => false

/-- the message authorises worker `a` -/
def exAuthorises (a : Addr) (p : Pending) : Bool :=
  match p.msg with
  | .registry (.authorizeWorkers ws n) => p.target = 10 ∧ n = svc ∧ a ∈ ws
  | _ => false

theorem exChangesKey_of {a : Addr} {p : Pending} (h : ChangesKey 18 a p) : exChangesKey a p = true := by
  obtain ⟨h1, h2, k, h3⟩ := h
  simp [exChangesKey, h1, h2, h3]

theorem exAuthorised_of {l : List Entry} {a : Addr} (i : Nat)
    (h1 : (match l[i]? with | some e => exAuthorises a e.p | none => false) = true)
    (h2 : (l.drop (i + 1)).all (fun e => !exUnauthorises a e.p) = true) : Authorised l 10 svc a := by
  refine stands_of i (exAuthorises a) (exUnauthorises a) ?_ ?_ h1 h2
  · intro p h
    unfold exAuthorises at h
    split at h
    · rename_i ws n hm
      obtain ⟨h1, rfl, h3⟩ := of_decide_eq_true h
      exact ⟨h1, ws, hm, h3⟩
    · simp at h
  · rintro p ⟨h1, ws, h2, h3⟩
    simp [exUnauthorises, h1, h2, h3]

/-- the fifth key -/
abbrev exKey5 : Bytes := List.replicate 33 5

set_option maxRecDepth 10000 in
/-- `C90_joined`: worker 5 joined with the commands of the daemon -/
theorem exJoined5 : Joined (log exP exSetup exTxs) 10 18 svc eth 5 exKey5 ∧
    (∃ ws x, askWorkers (worldAfter exP exSetup exTxs) 10 svc eth = some ws ∧ x ∈ ws ∧ x.address = 5) ∧
    askKey (worldAfter exP exSetup exTxs) 18 .ecdsa 5 = .ok (.ecdsa exKey5) :=
  C90_joined exP exSetup exTxs 10 1 18 _ rfl rfl exLib exDaemonCfg rfl rfl exKey5 (exTofnd 5) (exTofnd 5) (exTofnd 9)
    none none (some exKey5) rfl rfl rfl svc "axl".toList 10 [eth, sui] _ _ _ rfl rfl rfl ⟨10, "axl".toList, 1⟩
    ⟨(log exP exSetup exTxs)[0]'(by decide +kernel), List.getElem_mem _, by decide +kernel, by decide +kernel⟩
    (by decide)
    (stands_of 1 (fun p => decide (p = ⟨5, 10, [("axl".toList, 10)], .registry (.bondWorker svc)⟩))
      (fun p => decide (p.sender = 5 ∧ p.target = 10 ∧ p.msg = .registry (.unbondWorker svc)))
      (fun p h => of_decide_eq_true h) (fun p h => decide_eq_true h) (by decide +kernel) (by decide +kernel))
    ⟨(log exP exSetup exTxs)[4]'(by decide +kernel), List.getElem_mem _, by decide +kernel⟩ eth (by decide)
    (exAuthorised_of 7 (by decide +kernel) (by decide +kernel))
    (stands_of 11 (fun p => decide (p = ⟨5, 18, [], .multisig (.registerPublicKey .ecdsa exKey5)⟩))
      (exChangesKey 5) (fun p h => of_decide_eq_true h) (fun p h => exChangesKey_of h) (by decide +kernel)
      (by decide +kernel))

/-- worker 5 has joined before there is a set of workers -/
theorem exJoined5_before (ch : ChainName) (hch : ch = eth ∨ ch = sui) :
    Joined (log exP exSetup exBefore) 10 18 svc ch 5 exKey5 where
  bonded := ⟨⟨10, "axl".toList, 1⟩, "axl".toList, 10,
    ⟨(log exP exSetup exBefore)[0]'(by decide +kernel), List.getElem_mem _, by decide +kernel, by decide +kernel⟩,
    by decide, stands_of 1 (fun p => decide (p = ⟨5, 10, [("axl".toList, 10)], .registry (.bondWorker svc)⟩))
      (fun p => decide (p.sender = 5 ∧ p.target = 10 ∧ p.msg = .registry (.unbondWorker svc)))
      (fun p h => of_decide_eq_true h) (fun p h => decide_eq_true h) (by decide +kernel) (by decide +kernel)⟩
  declared := ⟨(log exP exSetup exBefore)[4]'(by decide +kernel), List.getElem_mem _, by decide +kernel,
    by decide +kernel, [eth, sui], by decide +kernel, by rcases hch with rfl | rfl <;> decide⟩
  authorised := exAuthorised_of 7 (by decide +kernel) (by decide +kernel)
  registered := stands_of 11
    (fun p => decide (p.sender = 5 ∧ p.target = 18 ∧ p.msg = .multisig (.registerPublicKey .ecdsa exKey5)))
    (exChangesKey 5) (fun p h => of_decide_eq_true h) (fun p h => exChangesKey_of h) (by decide +kernel)
    (by decide +kernel)

set_option maxRecDepth 10000 in
/-- `C90_first_set`: worker 5 becomes a member of the first set -/
example : ∃ ws, Installs exP (worldAfter exP exSetup exBefore) (exTx 9 3 19 (.prover .updateWorkerSet)) 19 exProver ws ∧
    (5, ⟨5, 1, .ecdsa exKey5⟩) ∈ ws.signers :=
  C90_first_set exP exSetup exBefore 19 exProver svc rfl 2 3 (by decide +kernel) 1 _ rfl rfl
    (exTx 9 3 19 (.prover .updateWorkerSet)) ⟨⟨[], rfl⟩, rfl, by decide⟩ (by decide) (by decide +kernel) 5 exKey5
    (exJoined5_before sui (Or.inr rfl)) (by
      intro ws hws
      have h : askWorkers (worldAfter exP exSetup exBefore) 10 svc sui = some exWorkers := by decide +kernel
      have := h.symm.trans hws
      simp only [Option.some.injEq] at this
      subst this
      refine ⟨by decide +kernel, ?_⟩
      intro x hx
      have key : exWorkers.all (fun x => (answer (askKey (worldAfter exP exSetup exBefore) 18 .ecdsa
        x.address)).isSome) = true := by decide +kernel
      have h := List.all_eq_true.mp key x hx
      change ∃ k, askKey (worldAfter exP exSetup exBefore) 18 .ecdsa x.address = .ok k
      cases hk : askKey (worldAfter exP exSetup exBefore) 18 .ecdsa x.address with
      | ok k => exact ⟨k, rfl⟩
      | error e => rw [hk] at h; simp [answer] at h)

theorem exTxs_long : 17 < (log exP exSetup exTxs).length := by decide +kernel

set_option maxRecDepth 10000 in
/-- `C90_polled`: worker 5 takes part in the poll -/
example : (5 : Addr) ∈ ([5, 6, 7] : List Addr) := by
  have hsplit : log exP exSetup exTxs = (log exP exSetup exTxs).take 17 ++ (log exP exSetup exTxs)[17]'exTxs_long ::
      (log exP exSetup exTxs).drop 18 := by
    rw [List.getElem_cons_drop, List.take_append_drop]
  have hj : Joined ((log exP exSetup exTxs).take 17) 10 18 svc eth 5 exKey5 := {
    bonded := ⟨⟨10, "axl".toList, 1⟩, "axl".toList, 10,
      ⟨((log exP exSetup exTxs).take 17)[0]'(by decide +kernel), List.getElem_mem _, by decide +kernel,
        by decide +kernel⟩,
      by decide, stands_of 1 (fun p => decide (p = ⟨5, 10, [("axl".toList, 10)], .registry (.bondWorker svc)⟩))
        (fun p => decide (p.sender = 5 ∧ p.target = 10 ∧ p.msg = .registry (.unbondWorker svc)))
        (fun p h => of_decide_eq_true h) (fun p h => decide_eq_true h) (by decide +kernel) (by decide +kernel)⟩
    declared := ⟨((log exP exSetup exTxs).take 17)[4]'(by decide +kernel), List.getElem_mem _, by decide +kernel,
      by decide +kernel, [eth, sui], by decide +kernel, by decide⟩
    authorised := exAuthorised_of 7 (by decide +kernel) (by decide +kernel)
    registered := stands_of 11
      (fun p => decide (p.sender = 5 ∧ p.target = 18 ∧ p.msg = .multisig (.registerPublicKey .ecdsa exKey5)))
      (exChangesKey 5) (fun p h => of_decide_eq_true h) (fun p h => exChangesKey_of h) (by decide +kernel)
      (by decide +kernel) }
  have hact : (match ((log exP exSetup exTxs)[17]'exTxs_long).act with
      | .verifier _ r => match r.event with
        | some (.messagesPollStarted _ pm) => some pm.participants
        | _ => none
      | _ => none) = some [5, 6, 7] := by decide +kernel
  split at hact
  · rename_i c r h
    split at hact
    · rename_i confs pm hr
      have := C90_polled exP exSetup exTxs _ _ _ hsplit 12 exVerifier rfl (by unfold VV.Config.Valid; decide) 1 rfl 18 _
        rfl 5 exKey5 hj (by decide +kernel) c r h pm (Or.inl ⟨confs, hr⟩)
      simp only [Option.some.injEq] at hact
      rw [← hact]
      exact this
    · simp at hact
  · simp at hact

set_option maxRecDepth 10000 in
/-- `C90_bond_accepted`, `C90_declare_accepted`, `C90_register_accepted`: worker 8 joins later -/
example : (∃ w' es, exec exP (worldAfter exP exSetup exTxs)
      (exTx 8 21 10 (.registry (.bondWorker svc)) [("axl".toList, 10)]) = .ok (w', es) ∧
      ∃ e ∈ es, e.p = ⟨8, 10, [("axl".toList, 10)], .registry (.bondWorker svc)⟩) ∧
    (∃ w' es, exec exP (worldAfter exP exSetup (exTxs ++ exJoin.take 1))
      (exTx 8 21 10 (.registry (.declareChainSupport svc [sui]))) = .ok (w', es) ∧
      ∃ e ∈ es, e.p = ⟨8, 10, [], .registry (.declareChainSupport svc [sui])⟩) ∧
    ∃ w' es, exec exP (worldAfter exP exSetup exTxs)
      (exTx 8 22 18 (.multisig (.registerPublicKey .ecdsa (List.replicate 33 8)))) = .ok (w', es) ∧
      ∃ e ∈ es, e.p = ⟨8, 18, [], .multisig (.registerPublicKey .ecdsa (List.replicate 33 8))⟩ := by
  refine ⟨?_, ?_, ?_⟩
  · exact C90_bond_accepted exP exSetup exTxs 10 1 rfl exLib exDaemonCfg rfl (exTofnd 8) none svc "axl".toList 10 _ rfl
      ⟨10, "axl".toList, 1⟩
      ⟨(log exP exSetup exTxs)[0]'(by decide +kernel), List.getElem_mem _, by decide +kernel, by decide +kernel⟩ rfl
      (by decide) (by decide +kernel) _ ⟨rfl, rfl, rfl, by decide⟩
  · exact C90_declare_accepted exP exSetup (exTxs ++ exJoin.take 1) 10 1 rfl exLib exDaemonCfg rfl (exTofnd 8) none svc
      [sui] _ rfl
      ⟨(log exP exSetup (exTxs ++ exJoin.take 1))[37]'(by decide +kernel), List.getElem_mem _, by decide +kernel,
        Or.inl ⟨by decide +kernel, by decide +kernel⟩⟩ _ ⟨rfl, rfl, rfl, by decide⟩
  · exact C90_register_accepted exP exSetup exTxs 18 _ rfl exLib exDaemonCfg rfl (exTofnd 8) none _ rfl _
      ⟨rfl, rfl, rfl, by decide⟩

end Amp.Chain
