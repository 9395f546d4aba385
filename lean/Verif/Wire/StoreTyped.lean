import Verif.Wire.QueryLemmas
import Verif.Registry.Lemmas
import Verif.Gateway.Props
import Verif.VV.Props
import Verif.Multisig.Props
import Verif.Encoding.Sort

/-!
# Lemmas for C95 and C96: what contracts store is of its type
-/

namespace Amp.Wire

open Amp.Router (ChainName Lowering CCId Message)
open Amp.Chain (Msg Params Block World Store answer)

variable {L : Lowering}

/-- worker sets, keys, sessions and signatures of the multisig contract -/
structure MultisigTyped (s : Multisig.State) : Prop where
  keys : ∀ a k, s.pubKeys a = some k → IsBytes k
  thresholds : ∀ id ws, s.workerSets id = some ws → ws.threshold ≤ u256Max
  signers : ∀ id ws, s.workerSets id = some ws → ∀ e ∈ ws.signers, e.2.weight ≤ u256Max ∧ KeyFits e.2.pubKey
  sessions : ∀ id se, s.sessions id = some se → ∀ h, se.state = .completed h → h ≤ u64Max
  signatures : ∀ id a sig, (s.signatures id).get? a = some sig → IsBytes sig.bytes

/-- what storage holds that messages, questions and answers are made of -/
def StoreTyped (L : Lowering) : Store → Prop
  | .verifier s => s.config.sourceChain.Valid L
  | .gateway s => ∀ id m, s.outgoing id = some m → MessageTyped L m
  | .registry s => ∀ name a w, Registry.findWorker s name a = some w → BondingTyped w.bonding
  | .multisig s => MultisigTyped s
  | .prover s _ _ => s.config.chainName.Valid L ∧ ∀ ws, s.next = some ws → SetTyped (Prover.toRaw ws)
  | _ => True

/-- the same for all contracts -/
def WorldTyped (L : Lowering) (w : World) : Prop := ∀ a s, w a = some s → StoreTyped L s

/-- coins of their type -/
def CoinsFit (l : List Registry.Coin) : Prop := ∀ c ∈ l, c.2 ≤ u128Max

theorem store_verifier {H : VV.Hashes} {s s' : VV.State} {c : VV.Call} {r : VV.Resp} (h : VV.exec H s c = .ok (s', r))
    (hs : StoreTyped L (.verifier s)) : StoreTyped L (.verifier s') := by
  show s'.config.sourceChain.Valid L
  rw [VV.exec_config h]; exact hs

theorem store_gateway {s s' : Gateway.State} {c : Gateway.Call} {r : Gateway.Resp} (h : Gateway.exec s c = .ok (s', r))
    (ht : Typed L (.gateway c.msg)) (hs : StoreTyped L (.gateway s)) : StoreTyped L (.gateway s') := by
  unfold Gateway.exec at h
  split at h
  · unfold Gateway.verifyMessages at h
    split at h
    · simp only [Except.ok.injEq, Prod.mk.injEq] at h; rw [← h.1]; exact hs
    split at h
    · simp at h
    split at h
    · simp at h
    split at h <;> (simp only [Except.ok.injEq, Prod.mk.injEq] at h; rw [← h.1]; exact hs)
  · rename_i ms hm
    rw [hm] at ht
    split at h
    · unfold Gateway.routeOutgoing at h
      split at h
      · simp at h
      simp only [Except.ok.injEq, Prod.mk.injEq] at h
      rw [← h.1]
      intro id m hmm
      have hmm : Gateway.saveAll s.outgoing ms id = some m := hmm
      rw [Gateway.saveAll_eq] at hmm
      split at hmm
      · rename_i x hx
        simp only [Option.some.injEq] at hmm
        subst hmm
        exact ht _ (List.mem_filter.mp (List.mem_of_getLast? hx)).1
      · exact hs id m hmm
    · unfold Gateway.routeIncoming at h
      split at h
      · simp at h
      split at h
      · simp at h
      simp only [Except.ok.injEq, Prod.mk.injEq] at h
      rw [← h.1]; exact hs

theorem save_typed {s : Registry.State} {n : Str} {a : Addr} {w : Registry.Worker}
    (hs : StoreTyped L (.registry s)) (hw : BondingTyped w.bonding) :
    StoreTyped L (.registry (Registry.saveWorker s n a w)) := by
  intro name x y hy
  rw [Registry.findWorker_save] at hy
  split at hy
  · simp only [Option.some.injEq] at hy
    rw [← hy]; exact hw
  · exact hs _ _ _ hy

theorem addBond_typed {b b' : Registry.BondingState} {n : Nat} (h : b.addBond n = .ok b') (hn : n ≤ u128Max) :
    BondingTyped b' := by
  unfold Registry.BondingState.addBond at h
  repeat' split at h
  all_goals first
    | (simp only [Except.ok.injEq] at h; rw [← h]; show _ ≤ u128Max; omega)
    | cases h

theorem fold_typed {n : Str} {x : Registry.AuthState} (ws : List Addr) : ∀ {s : Registry.State},
    StoreTyped L (.registry s) → StoreTyped L (.registry (ws.foldl (Registry.setAuth n x) s)) := by
  induction ws with
  | nil => intro s hs; exact hs
  | cons a t ih =>
    intro s hs
    rw [List.foldl_cons]
    refine ih ?_
    unfold Registry.setAuth
    split
    · rename_i w hw
      exact save_typed hs (hs n a w hw)
    · exact save_typed hs (by exact trivial)

theorem store_registry {s s' : Registry.State} {c : Registry.Call} {r : Registry.Resp}
    (h : Registry.exec s c = .ok (s', r)) (hc : CoinsFit c.funds) (ht : c.time ≤ u64Max)
    (hs : StoreTyped L (.registry s)) : StoreTyped L (.registry s') := by
  have auth : ∀ ws n x, Registry.updateAuth s ws n x = .ok (s', r) → StoreTyped L (.registry s') := by
    intro ws n x h
    unfold Registry.updateAuth at h
    split at h
    · simp at h
    simp only [Except.ok.injEq, Prod.mk.injEq] at h
    rw [← h.1]
    exact fold_typed ws hs
  unfold Registry.exec at h
  split at h
  · split at h
    · simp at h
    unfold Registry.registerService at h
    split at h
    · simp only [Except.ok.injEq, Prod.mk.injEq] at h
      rw [← h.1]; exact hs
    · simp at h
  · split at h
    · simp at h
    exact auth _ _ _ h
  · split at h
    · simp at h
    exact auth _ _ _ h
  · unfold Registry.declareChains at h
    split at h
    · simp at h
    split at h
    · simp at h
    simp only [Except.ok.injEq, Prod.mk.injEq] at h
    rw [← h.1]; exact hs
  · unfold Registry.bondWorker at h
    split at h
    · simp at h
    split at h
    · simp at h
    rename_i bond hb
    have hbond : bond ≤ u128Max := by
      unfold Registry.bondOf at hb
      split at hb
      · simp only [Except.ok.injEq] at hb; rw [← hb]; exact Nat.zero_le _
      split at hb
      · simp at hb
      rename_i k hk
      simp only [Except.ok.injEq] at hb
      rw [← hb]; exact hc k (List.mem_of_find?_eq_some hk)
    split at h
    · split at h
      · simp at h
      rename_i b' hb'
      simp only [Except.ok.injEq, Prod.mk.injEq] at h
      rw [← h.1]
      exact save_typed hs (addBond_typed hb' hbond)
    · simp only [Except.ok.injEq, Prod.mk.injEq] at h
      rw [← h.1]
      exact save_typed hs hbond
  · unfold Registry.unbondWorker at h
    split at h
    · simp at h
    split at h
    · simp at h
    rename_i w hw
    split at h
    · simp at h
    rename_i b' hb'
    simp only [Except.ok.injEq, Prod.mk.injEq] at h
    rw [← h.1]
    refine save_typed hs ?_
    have hwt := hs _ _ _ hw
    show BondingTyped b'
    unfold Registry.BondingState.unbond at hb'
    revert hb' hwt
    cases w.bonding <;> intro hb' hwt <;> simp only [if_true, Except.ok.injEq, reduceCtorEq] at hb' <;> rw [← hb']
    · exact ⟨hwt, ht⟩
    · exact ⟨hwt, ht⟩
  · unfold Registry.claimStake at h
    split at h
    · simp at h
    split at h
    · simp at h
    split at h
    · simp at h
    rename_i b' released hb'
    simp only [Except.ok.injEq, Prod.mk.injEq] at h
    rw [← h.1]
    refine save_typed hs ?_
    show BondingTyped b'
    unfold Registry.BondingState.claimStake at hb'
    split at hb'
    · split at hb'
      · simp at hb'
      split at hb'
      · simp only [Except.ok.injEq, Prod.mk.injEq] at hb'
        rw [← hb'.1]; trivial
      · simp at hb'
    · simp at hb'

theorem decode_typed {r : Multisig.RawWorkerSet} {ws : Multisig.WorkerSet} (h : r.decode = .ok ws) (hr : SetTyped r) :
    ws.threshold ≤ u256Max ∧ ∀ e ∈ ws.signers, e.2.weight ≤ u256Max ∧ KeyFits e.2.pubKey := by
  have hk := decode_fits h (fun e he => (hr.signers e he).2)
  unfold Multisig.RawWorkerSet.decode at h
  split at h
  · simp at h
  split at h
  · simp at h
  rename_i l hl
  simp only [Except.ok.injEq] at h
  subst h
  refine ⟨hr.threshold, fun e he => ⟨?_, hk e he⟩⟩
  have hm : e ∈ l := mem_ofList he
  obtain ⟨x, hx, hxe⟩ := mapE_mem_right hl hm
  split at hxe
  · simp at hxe
  rename_i s hs
  simp only [Except.ok.injEq] at hxe
  subst hxe
  unfold Multisig.RawSigner.decode at hs
  split at hs
  · simp at hs
  split at hs
  · simp at hs
  simp only [Except.ok.injEq] at hs
  subst hs
  exact (hr.signers x hx).1

theorem store_multisig {C : Multisig.Crypto} {i : Multisig.WorkerSet → Str} {s s' : Multisig.State} {c : Multisig.Call}
    {r : Multisig.Resp} (h : Multisig.exec C i s c = .ok (s', r)) (ht : Typed L (.multisig c.msg))
    (hh : c.height ≤ u64Max) (hs : MultisigTyped s) : MultisigTyped s' := by
  rcases Multisig.exec_ok h with ⟨wid, msg, chain, ok, hm, h⟩ | ⟨i, b, hm, h⟩ | ⟨raw, ws, hm, hd, e1, e2⟩ |
    ⟨kt, b, k, hm, hk, e1, e2⟩ | ⟨a, hm, hg, e1, e2⟩ | ⟨a, hm, hg, e1, e2⟩
  · obtain ⟨_, _, _, hc, _, _, e, _⟩ := Multisig.start_ok.mp h
    rw [e]
    refine ⟨hs.keys, hs.thresholds, hs.signers, ?_, hs.signatures⟩
    intro id se hse h hst
    have hse : (s.sessions.set (s.counter + 1) ⟨s.counter + 1, wid, msg, .pending⟩) id = some se := hse
    by_cases hi : id = s.counter + 1
    · subst hi
      rw [KV.set_self] at hse
      simp only [Option.some.injEq] at hse
      rw [← hse] at hst
      cases hst
    · rw [KV.set_ne _ _ hi] at hse
      exact hs.sessions _ _ hse _ hst
  · rw [hm] at ht
    obtain ⟨se0, ws, sg, sig, w, k1, k2, k3, k4, k5, k6, k7, k8, e, _⟩ := Multisig.submit_ok.mp h
    rw [e]
    refine ⟨hs.keys, hs.thresholds, hs.signers, ?_, ?_⟩
    · intro id se hse h hst
      have hse : (s.sessions.set se0.id { se0 with state := Multisig.nextState se0 ws w c.height }) id = some se := hse
      by_cases hi : id = se0.id
      · subst hi
        rw [KV.set_self] at hse
        simp only [Option.some.injEq] at hse
        rw [← hse] at hst
        have hst : Multisig.nextState se0 ws w c.height = .completed h := hst
        unfold Multisig.nextState at hst
        split at hst
        · simp only [Multisig.SessionState.completed.injEq] at hst
          rw [← hst]; exact hh
        · exact hs.sessions _ _ k1 _ hst
      · rw [KV.set_ne _ _ hi] at hse
        exact hs.sessions _ _ hse _ hst
    · intro id a sig' hsig
      have hsig : (Multisig.addSig s i c.sender sig id).get? a = some sig' := hsig
      unfold Multisig.addSig at hsig
      split at hsig
      · rw [OMap.get?_set] at hsig
        split at hsig
        · simp only [Option.some.injEq] at hsig
          rw [← hsig, k5]; exact ht.2
        · exact hs.signatures _ _ _ hsig
      · exact hs.signatures _ _ _ hsig
  · rw [hm] at ht
    have hd' := decode_typed hd ht
    rw [e1]
    refine ⟨hs.keys, ?_, ?_, hs.sessions, hs.signatures⟩
    all_goals
      intro id x hx
      have hx : (s.workerSets.set (i ws) ws) id = some x := hx
      by_cases hi : id = i ws
      · subst hi
        rw [KV.set_self] at hx
        simp only [Option.some.injEq] at hx
        rw [← hx]
        first | exact hd'.1 | exact hd'.2
      · rw [KV.set_ne _ _ hi] at hx
        first | exact hs.thresholds _ _ hx | exact hs.signers _ _ hx
  · rw [hm] at ht
    rw [e1]
    refine ⟨?_, hs.thresholds, hs.signers, hs.sessions, hs.signatures⟩
    intro a' k' hk'
    have hk' : (s.pubKeys.set (c.sender, kt) b) a' = some k' := hk'
    by_cases ha : a' = (c.sender, kt)
    · subst ha
      rw [KV.set_self] at hk'
      simp only [Option.some.injEq] at hk'
      rw [← hk']
      exact ht
    · rw [KV.set_ne _ _ ha] at hk'
      exact hs.keys _ _ hk'
  · rw [e1]; exact ⟨hs.keys, hs.thresholds, hs.signers, hs.sessions, hs.signatures⟩
  · rw [e1]; exact ⟨hs.keys, hs.thresholds, hs.signers, hs.sessions, hs.signatures⟩

/-! ### Answers -/

theorem workers_typed {s : Registry.State} (hs : StoreTyped L (.registry s)) {sv : Str} {c : ChainName}
    {ws : List Registry.Worker} (h : Registry.getActiveWorkers s sv c = .ok ws) : ∀ w ∈ ws, BondingTyped w.bonding := by
  unfold Registry.getActiveWorkers at h
  split at h
  · simp at h
  split at h
  · simp at h
  rename_i l hl
  simp only [Except.ok.injEq] at h
  subst h
  intro w hw
  obtain ⟨a, _, ha⟩ := mapE_mem_right hl (List.mem_filter.mp hw).1
  unfold Registry.loadWorker at ha
  split at ha
  · simp at ha
  rename_i x hx
  simp only [Except.ok.injEq] at ha
  rw [← ha]; exact hs _ _ _ hx

theorem messages_typed {s : Gateway.State} (hs : StoreTyped L (.gateway s)) {ids : List CCId} {ms : List Message}
    (h : Gateway.getMessages s ids = .ok ms) : ∀ m ∈ ms, MessageTyped L m := by
  intro m hm
  obtain ⟨i, _, hi⟩ := mapE_mem_right h hm
  unfold Gateway.loadOutgoing at hi
  split at hi
  · simp at hi
  rename_i x hx
  simp only [Except.ok.injEq] at hi
  rw [← hi]; exact hs _ _ hx

theorem key_fits {s : Multisig.State} (hs : MultisigTyped s) {a : Addr} {kt : Multisig.KeyType} {k : Multisig.PublicKey}
    (h : Multisig.getPublicKey s a kt = .ok k) : KeyFits k := by
  unfold Multisig.getPublicKey at h
  split at h
  · simp at h
  · rename_i b hb
    split at h
    · simp at h
    · rename_i k2 hk2
      simp only [Except.ok.injEq] at h
      rw [← h]
      exact tryFrom_fits hk2 (hs.keys _ _ hb)

theorem session_typed {s : Multisig.State} (hs : MultisigTyped s) {id : Nat} {m : Multisig.Multisig}
    (h : Multisig.getMultisig s id = some m) : SessionTyped m := by
  unfold Multisig.getMultisig at h
  split at h
  · simp at h
  rename_i se hse
  split at h
  · simp at h
  rename_i ws hws
  simp only [Option.some.injEq] at h
  subst h
  refine ⟨fun n hn => hs.sessions _ _ hse n hn, hs.thresholds _ _ hws, ?_, ?_, ?_⟩
  · intro p hp
    obtain ⟨e, he, rfl⟩ := List.mem_map.mp hp
    exact (hs.signers _ _ hws e he).1
  · intro p hp
    obtain ⟨e, he, rfl⟩ := List.mem_map.mp hp
    exact (hs.signers _ _ hws e he).2
  · intro p hp sig hsig
    obtain ⟨e, he, rfl⟩ := List.mem_map.mp hp
    exact hs.signatures _ _ _ hsig

theorem statuses_typed {H : VV.Hashes} {s : VV.State} {ms : List Message} {l : List (CCId × Bool)}
    (h : VV.isVerified H s ms = .ok l) (ht : ∀ m ∈ ms, MessageTyped L m) : ∀ p ∈ l, CCIdTyped L p.1 := by
  intro p hp
  obtain ⟨m, hm, hmp⟩ := mapE_mem_right h hp
  unfold VV.isVerified1 at hmp
  split at hmp
  · simp at hmp
  simp only [Except.ok.injEq] at hmp
  rw [← hmp]; exact (ht m hm).ccId

theorem operators_fit {X : Encoding.Ext} (hX : ∀ b, IsBytes (X.keccak b)) {enc : Encoding.Encoder}
    {ws : Multisig.WorkerSet} (h : SetTyped (Prover.toRaw ws)) {o : Std.Operators}
    (ho : Prover.makeOperators X enc ws = .ok o) : OperatorsFit o := by
  have hsig : ∀ e ∈ ws.signers, e.2.weight ≤ u256Max ∧ IsBytes e.2.pubKey.bytes := fun e he =>
    h.signers _ (List.mem_map.mpr ⟨e, he, rfl⟩)
  unfold Prover.makeOperators at ho
  split at ho
  · unfold Encoding.Abi.makeOperators at ho
    split at ho
    · simp at ho
    rename_i l hl
    simp only [Except.ok.injEq] at ho
    rw [← ho]
    have key : ∀ p ∈ l, IsBytes p.1 ∧ p.2 ≤ u256Max := by
      intro p hp
      obtain ⟨e, he, hep⟩ := mapE_mem_right hl hp
      split at hep
      · simp at hep
      rename_i a ha
      simp only [Except.ok.injEq] at hep
      rw [← hep]
      refine ⟨?_, (hsig e he).1⟩
      unfold Encoding.Abi.evmAddress at ha
      split at ha
      · simp at ha
      simp only [Except.ok.injEq] at ha
      rw [← ha]
      intro x hx
      exact hX _ x (List.mem_of_mem_drop hx)
    exact ⟨fun p hp => (key p ((Encoding.sortByAddr_perm l).mem_iff.mp hp)).1,
      fun p hp => (key p ((Encoding.sortByAddr_perm l).mem_iff.mp hp)).2, h.threshold⟩
  · simp only [Except.ok.injEq] at ho
    rw [← ho]
    have key : ∀ p ∈ Encoding.Bcs.operatorsOf ws, IsBytes p.1 ∧ p.2 ≤ u256Max := by
      intro p hp
      obtain ⟨e, he, rfl⟩ := List.mem_map.mp hp
      exact ⟨(hsig e he).2, (hsig e he).1⟩
    exact ⟨fun p hp => (key p ((Encoding.sortByAddr_perm _).mem_iff.mp hp)).1,
      fun p hp => (key p ((Encoding.sortByAddr_perm _).mem_iff.mp hp)).2, h.threshold⟩

end Amp.Wire
