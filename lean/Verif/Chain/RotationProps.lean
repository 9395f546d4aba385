import Verif.Chain.ProofProps

/-!
# C86: worker sets rotate when, and only when, the destination chain has the new set

The prover replaces its worker set only by the one that the current set was asked to hand over to, once the gateway on
the destination chain has emitted the handover; and it can always be made to.
-/

namespace Amp.Chain

open Amp.Router (ChainName CCId Message)
open Amp.Multisig (WorkerSet)
open Amp.Prover (Sys SysResp sysAfter sysLog sysExec sysInit IsBatch dataDigest SetOf SameSet membershipChanges
  Nameable ChainIdFits batchId newSigners IsOperators)

/-! ### Specification -/

/-- the configured gateway of the chain emitted the handover to these operators -/
def Source.Transferred (s : Source) (vc : VV.Config) (o : Std.Operators) : Prop :=
  match s with
  | .evm _ _ R decodeLog _ _ onChain => ∃ id tx i h gateway r,
      VV.parseMessageId id = some (tx, i) ∧ R.hash tx = some h ∧
      (R.attr vc.sourceGateway).bind R.addr = some gateway ∧ onChain r ∧
      Ampd.Evm.Transferred decodeLog gateway r ⟨h, i, o.weights, o.threshold⟩
  | .sui _ _ R json _ onChain => ∃ id tx i h gateway b,
      VV.parseMessageId id = some (tx, i) ∧ R.digest tx = some h ∧
      (R.attr vc.sourceGateway).bind R.suiAddr = some gateway ∧ onChain b ∧
      Ampd.Sui.Transferred json gateway b ⟨h, i, o.weights, o.threshold⟩

/-- the transaction consists of one message to the prover at `Q`, sent by someone who is not a contract -/
structure Sends (setup : Setup) (tx : Tx) (Q : Addr) (m : Prover.Msg) : Prop where
  msgs : ∃ funds, tx.msgs = [(Q, funds, .prover m)]
  sender : setup tx.sender = none
  gas : 1 ≤ tx.gas

/-- the transaction succeeds, the prover at `Q` has worker set `ws` and no other set is pending, and it is registered
at the multisig contract -/
def Installs (P : Params) (w : World) (tx : Tx) (Q : Addr) (pc : Prover.Config) (ws : WorkerSet) : Prop :=
  ∃ w' es, exec P w tx = .ok (w', es) ∧ currentSet w' Q = some ws ∧ pendingSet w' Q = none ∧
    registeredSet w' pc.multisig (Prover.workerSetId P.X ws) = some ws

/-! ### Helper lemmas -/

variable {P : Params} {setup : Setup} {l l₁ l₂ : List Entry} {w w' : World} {Q : Addr} {e : Entry}
  {pc : Prover.Config} {sv : Str} {kt : Multisig.KeyType} {mc : Multisig.Config}

/-- every state of the prover is reached by calls of it -/
theorem prover_state (hi : Inv P setup l w) (hQ : setup Q = some (.prover pc sv kt)) :
    ∃ s, w Q = some (.prover s sv kt) ∧ ∃ cs, s = Prover.stateAfter P.X pc cs := by
  rw [hi.world]
  unfold worldOf
  rw [hQ]
  exact ⟨_, rfl, _, rfl⟩

/-- the new state of the contract that was called -/
theorem worldOf_entry (hi : Inv P setup l w) (hl : l = l₁ ++ e :: l₂) :
    ∃ b reply s', call P b (worldOf P setup l₁) e.p reply = .ok (s', e.act) ∧
      worldOf P setup (l₁ ++ [e]) = (worldOf P setup l₁).set e.p.target s' := by
  obtain ⟨_, b, reply, s', h⟩ := hi.genuine l₁ e l₂ hl
  have ho := (hi.genuine l₁ e l₂ hl).1
  have := (Inv.snoc (hi.prefix hl) ho h).world
  exact ⟨b, reply, s', h, this.symm⟩

/-- a key that the multisig contract returns is well-formed -/
theorem askKey_decodes {a x : Addr} {k : Multisig.PublicKey} (h : askKey w a kt x = .ok k) :
    Multisig.PublicKey.tryFrom k.keyType k.bytes = .ok k := by
  unfold askKey at h
  split at h
  · split at h
    · rename_i k' hk
      simp only [Except.ok.injEq] at h
      subst h
      unfold Multisig.getPublicKey at hk
      split at hk
      · simp at hk
      · split at hk
        · simp at hk
        · rename_i k2 ht
          simp only [Except.ok.injEq] at hk
          subst hk
          unfold Multisig.PublicKey.tryFrom at ht
          split at ht
          · split at ht
            · simp at ht
            · rename_i hl
              simp only [Except.ok.injEq] at ht
              subst ht
              exact if_neg hl
          · split at ht
            · simp at ht
            · rename_i hl
              simp only [Except.ok.injEq] at ht
              subst ht
              exact if_neg hl
    · simp at h
  · simp at h

/-- what the multisig contract needs to accept a worker set -/
structure Registrable (ws : WorkerSet) : Prop where
  ones : ∀ e ∈ ws.signers, e.2.weight = 1
  threshold : ws.threshold ≤ u256Max
  keys : ∀ e ∈ ws.signers, Multisig.PublicKey.tryFrom e.2.pubKey.keyType e.2.pubKey.bytes = .ok e.2.pubKey
  sorted : OMap.Sorted ws.signers

theorem mulCeil_le {x q : Nat} {th : Std.MajorityThreshold} (h : Std.mulCeil x th = .ok q) : q ≤ u256Max := by
  unfold Std.mulCeil at h
  simp only at h
  generalize (if x * th.num % th.den ≠ 0 then x * th.num / th.den + 1 else x * th.num / th.den) = r at h
  by_cases hr : r ≤ u256Max
  · rw [if_pos hr] at h
    simp only [Except.ok.injEq] at h
    rw [← h]
    exact hr
  · rw [if_neg hr] at h
    simp at h

theorem registrable_made {b : Block} {ws : WorkerSet}
    (h : Prover.makeWorkerSet pc (proverEnv P w b pc sv kt) = .ok ws) : Registrable ws := by
  obtain ⟨workers, ha, hs⟩ := Prover.setOf_makeWorkerSet h
  refine ⟨fun e he => ((hs.signers e.1 e.2).mp he).2.2.1, ?_, ?_, ?_⟩
  · obtain ⟨_, _, _, _, _, hsn, _, rfl⟩ := Prover.makeWorkerSet_ok h
    exact mulCeil_le (Std.Snapshot.new_ok hsn).2.2.1
  · intro e he
    exact askKey_decodes ((hs.signers e.1 e.2).mp he).2.2.2
  · exact (Prover.setWF_makeWorkerSet h).sorted

/-- pending worker sets can be registered -/
theorem registrable_pending (hi : Inv P setup l w) (hQ : setup Q = some (.prover pc sv kt)) :
    ∀ ws, pendingSet w Q = some ws → Registrable ws := by
  rw [hi.world]
  replace hi := hi.prefix (l₁ := l) (l₂ := []) (by simp)
  induction l using List.reverseRecOn with
  | nil =>
    intro ws h
    unfold pendingSet worldOf at h
    rw [hQ] at h
    simp [replay, actsAt, Prover.init] at h
  | append_singleton l e ih =>
    have hi' := hi.prefix (l₁ := l) (l₂ := [e]) rfl
    replace ih := ih hi'
    obtain ⟨b, reply, st, hcall, hw⟩ := worldOf_entry (e := e) (l₁ := l) (l₂ := []) hi rfl
    intro ws h
    by_cases ht : e.p.target = Q
    · obtain ⟨s, hs, cs, hcs⟩ := prover_state hi' hQ
      have hcfg : s.config = pc := by rw [hcs]; exact Prover.config_stateAfter P.X pc cs
      have hm : ∃ m, e.p.msg = .prover m := by
        unfold call at hcall
        rw [ht, hs] at hcall
        cases hm : e.p.msg with
        | prover m => exact ⟨m, rfl⟩
        | _ => rw [hm] at hcall; simp at hcall
      obtain ⟨m, hm⟩ := hm
      obtain ⟨s', r, rfl, _, hx⟩ := call_prover_ok (by rw [ht]; exact hs) hm hcall
      have h1 : s'.next = some ws := by
        unfold pendingSet at h
        rw [hw, ht, KV.set_self] at h
        exact h
      have old : s.next = some ws → Registrable ws := fun h => ih ws (by unfold pendingSet; rw [hs]; exact h)
      rw [hcfg] at hx
      cases Prover.exec_effect hx with
      | first new hmm hc hn hs' hr => rw [hs'] at h1; exact old h1
      | confirmed ws' ops hmm hp ho hv hs' hr => rw [hs'] at h1; simp at h1
      | reused ids b cur digest sid hmm hb hg hc hd ha hs' hr => rw [hs'] at h1; exact old h1
      | built ids msgs ws' b cur digest sid hmm hw hb hp hc hd ha hs' hr =>
        rw [hs'] at h1
        simp only at h1
        unfold Prover.pendingAfter at h1
        cases ws' with
        | none => exact old h1
        | some w0 =>
          simp only [Option.some.injEq] at h1
          subst h1
          obtain ⟨nw, _, g1, _, g3⟩ := Prover.nextWorkerSet_ok.mp hw
          rw [hcfg] at g1
          split at g3
          · simp only [Option.some.injEq] at g3
            rw [g3]
            exact registrable_made g1
          · simp at g3
    · refine ih ws ?_
      unfold pendingSet at h ⊢
      rw [hw, KV.set_ne _ _ (Ne.symm ht)] at h
      exact h

/-- the multisig contract decodes what the prover sends -/
theorem decode_total {ws : WorkerSet} (h : Registrable ws) (hc : ws.createdAt ≤ u64Max) :
    (Prover.toRaw ws).decode = .ok ws := by
  have key : ∃ ws', (Prover.toRaw ws).decode = .ok ws' := by
    unfold Multisig.RawWorkerSet.decode
    rw [if_neg (by
      have := h.threshold
      simp only [Prover.toRaw]
      omega)]
    split
    · rename_i x hx
      exfalso
      obtain ⟨r, hr⟩ := mapE_ok_of_forall (f := fun e : Addr × Multisig.RawSigner =>
        match Multisig.RawSigner.decode e.2 with
        | .error x => (.error x : Except Multisig.Err (Addr × Multisig.Signer))
        | .ok s => .ok (e.1, s)) (l := (Prover.toRaw ws).signers) (by
        intro y hy
        obtain ⟨e, he, rfl⟩ := List.mem_map.mp hy
        have h1 := h.ones e he
        have h2 := h.keys e he
        simp only [Multisig.RawSigner.decode, h2, h1]
        rw [if_neg (by unfold u256Max; omega)]
        exact ⟨_, rfl⟩)
      have := hx.symm.trans hr
      simp at this
    · exact ⟨_, rfl⟩
  obtain ⟨ws', hw⟩ := key
  rw [hw, Prover.decode_toRaw h.sorted hw]

/-- installing a worker set -/
theorem installs_of {txs : List Tx} (hQ : setup Q = some (.prover pc sv kt))
    (hM : setup pc.multisig = some (.multisig mc)) {tx : Tx} {m : Prover.Msg} (hsend : Sends setup tx Q m)
    {s s1 : Prover.State} (hs : worldAfter P setup txs Q = some (.prover s sv kt)) {ws : WorkerSet}
    (hh : Prover.handle P.X s (proverEnv P (worldAfter P setup txs) tx.block pc sv kt) m =
      .ok (s1, .registerWorkerSet ws)) (hcur : s1.current = some ws) (hnx : s1.next = none)
    (hr : Registrable ws) (hc : ws.createdAt ≤ u64Max) :
    Installs P (worldAfter P setup txs) tx Q pc ws := by
  have hi := inv P setup txs
  obtain ⟨s', hs', cs, hcs⟩ := prover_state hi hQ
  rw [hs] at hs'
  simp only [Option.some.injEq, Store.prover.injEq] at hs'
  have hcfg : s.config = pc := by rw [hs'.1, hcs]; exact Prover.config_stateAfter P.X pc cs
  obtain ⟨ops, hp⟩ := pair P setup txs hQ hM
  have hwM := hp.multisig
  have hne : Q ≠ pc.multisig := by
    intro hq
    rw [← hq, hs] at hwM
    simp at hwM
  obtain ⟨funds, htx⟩ := hsend.msgs
  have hx := exec_request (P := P) (w := worldAfter P setup txs) htx
    (by rw [hi.world]; simp [worldOf, hsend.sender]) hsend.gas hs hcfg hwM hh
    (S' := { (sysAfter P.X P.C Q pc mc ops).multisig with
      workerSets := (sysAfter P.X P.C Q pc mc ops).multisig.workerSets.set (Prover.workerSetId P.X ws) ws })
    (mr := {})
    (by simp only [Prover.Out.toMultisig, Multisig.exec, Multisig.registerWorkerSet, decode_total hr hc]) rfl
    (s' := s1) (r := ⟨.registerWorkerSet ws, none⟩) (by unfold Prover.exec; simp only [hh])
  refine ⟨_, _, hx, ?_, ?_, ?_⟩
  · unfold currentSet
    rw [KV.set_ne _ _ hne, KV.set_self]
    exact hcur
  · unfold pendingSet
    rw [KV.set_ne _ _ hne, KV.set_self]
    exact hnx
  · unfold registeredSet
    rw [KV.set_self]
    simp [Multisig.getWorkerSet]

/-- a handover that can be encoded names all operators -/
theorem operators_of_transfer {X : Encoding.Ext} {enc : Encoding.Encoder} {ws : WorkerSet} {c : Encoding.Command}
    (h : Prover.IsTransfer X enc ws c) : ∃ o, Prover.makeOperators X enc ws = .ok o := by
  cases enc with
  | bcs => exact ⟨_, rfl⟩
  | abi =>
    have h3 : Encoding.Abi.transferOperatorshipParams X ws = .ok c.params := h.2.2
    unfold Encoding.Abi.transferOperatorshipParams at h3
    simp only [Prover.makeOperators, Encoding.Abi.makeOperators]
    split at h3
    · simp at h3
    · rename_i l hl
      exact ⟨_, rfl⟩

/-- no set is pending before there is one -/
theorem none_pending (X : Encoding.Ext) (cfg : Prover.Config) (cs : List Prover.Call)
    (h : (Prover.stateAfter X cfg cs).current = none) : (Prover.stateAfter X cfg cs).next = none := by
  cases hn : (Prover.stateAfter X cfg cs).next with
  | none => rfl
  | some ws =>
    obtain ⟨_, _, _, _, _, _, _, _, _, h2, _⟩ := Prover.C52_proposed X cfg cs ws hn
    rw [h] at h2
    simp at h2

/-- what a watched verifier reports as verified was handed over -/
theorem transferred_of_verified (hi : Inv P setup l w) {vc : VV.Config} (hv : vc.Valid) {V : Addr}
    (hk : setup V = some (.verifier vc)) {s : Source} (hw : Watched P setup l V vc s) (hl : l = l₁ ++ l₂)
    {o : Std.Operators} (hb : (∀ p ∈ o.weights, p.2 ≤ u256Max) ∧ o.threshold ≤ u256Max)
    (h : askSet P (worldOf P setup l₁) V o = .ok true) : s.Transferred vc o := by
  have hver : VV.opsStatus P.H (VV.stateAfter P.H vc (verifierCalls V l)) o = .ok .verified := by
    have h1 : VV.opsStatus P.H (VV.stateAfter P.H vc (verifierCalls V l₁)) o = .ok .verified := by
      unfold askSet at h
      rw [(hi.prefix hl).verifier_state hk] at h
      simp only at h
      unfold VV.isWorkerSetVerified at h
      cases ho : VV.opsStatus P.H (VV.stateAfter P.H vc (verifierCalls V l₁)) o with
      | error x => rw [ho] at h; simp at h
      | ok st =>
        rw [ho] at h
        simp only [Except.ok.injEq, decide_eq_true_eq] at h
        rw [h]
    have h2 := VV.C10_worker_set_verified_forever P.H vc hv (verifierCalls V l₁) (verifierCalls V l₂) o h1
    have : verifierCalls V l = verifierCalls V l₁ ++ verifierCalls V l₂ := by
      unfold verifierCalls
      rw [hl, actsAt_append, List.filterMap_append]
    rw [this]
    exact h2
  have hq := watched_quorums hi hv hk hw
  cases s with
  | evm D L R decodeLog chain saw onChain =>
    obtain ⟨_, _, id, tx, i, h, gateway, r, _, h1, h2, h3, h4, h5⟩ :=
      Ampd.Evm.C73_worker_set_transferred P.H vc hv _ o hver hb L R decodeLog V chain saw onChain hq
    exact ⟨id, tx, i, h, gateway, r, h1, h2, h3, h4, h5⟩
  | sui J L R json saw onChain =>
    obtain ⟨_, _, id, tx, i, h, gateway, r, _, h1, h2, h3, h4, h5⟩ :=
      Ampd.Sui.C73_worker_set_transferred P.H vc hv _ o hver L R json V saw onChain hq
    exact ⟨id, tx, i, h, gateway, r, h1, h2, h3, h4, h5⟩

/-- weights and threshold of operators are those of the worker set -/
theorem operators_bounds {X : Encoding.Ext} {enc : Encoding.Encoder} {ws : WorkerSet} (h : Registrable ws)
    {o : Std.Operators} (ho : IsOperators X enc ws o) :
    (∀ p ∈ o.weights, p.2 = 1) ∧ o.threshold ≤ u256Max := by
  refine ⟨?_, by rw [ho.1]; exact h.threshold⟩
  intro p hp
  have h1 := ho.2.2.mem_iff.mp (List.mem_map.mpr ⟨p, hp, rfl⟩)
  obtain ⟨e, he, heq⟩ := List.mem_map.mp h1
  have := h.ones e he
  simp only [Prod.mk.injEq] at heq
  rw [← heq.2]
  exact this

/-- the operators of a worker set are unique -/
theorem operators_unique {X : Encoding.Ext} {enc : Encoding.Encoder} {ws : WorkerSet} (h : Registrable ws)
    {o o' : Std.Operators} (ho : IsOperators X enc ws o) (ho' : IsOperators X enc ws o') : o = o' := by
  have hp : (o.weights.map Prod.fst).Perm (o'.weights.map Prod.fst) := by
    have h1 := (ho.2.2.trans ho'.2.2.symm).map (fun x : Except Encoding.Err Encoding.Bytes × Nat =>
      match x.1 with
      | .ok b => b
      | .error _ => [])
    rw [List.map_map, List.map_map] at h1
    exact h1
  have heq : o.weights.map Prod.fst = o'.weights.map Prod.fst :=
    hp.eq_of_pairwise (fun a b _ _ h1 h2 => le_antisymm h1 h2) ho.2.1 ho'.2.1
  have hw : o.weights = o'.weights := by
    have e1 : ∀ x : Std.Operators, IsOperators X enc ws x → x.weights = (x.weights.map Prod.fst).map (fun a => (a, 1)) := by
      intro x hx
      rw [List.map_map]
      conv => lhs; rw [← List.map_id x.weights]
      apply List.map_congr_left
      intro p hp
      have := (operators_bounds h hx).1 p hp
      obtain ⟨a, b⟩ := p
      simp only at this
      simp [this]
    rw [e1 o ho, e1 o' ho', heq]
  have ht : o.threshold = o'.threshold := by rw [ho.1, ho'.1]
  cases o
  cases o'
  simp only at hw ht
  rw [hw, ht]

/-! ### C86: rotations -/

/-- C86, safety: the worker set of a prover changes only when the first set is installed, which consists of the active
workers with their registered keys, or when the pending set is confirmed, which the verifier of the destination chain
reports as verified. -/
theorem C86_rotation_verified (P : Params) (setup : Setup) (txs : List Tx) (Q : Addr) (pc : Prover.Config) (sv : Str)
    (kt : Multisig.KeyType) (hQ : setup Q = some (.prover pc sv kt)) (l₁ l₂ : List Entry) (e : Entry)
    (hl : log P setup txs = l₁ ++ e :: l₂)
    (hne : currentSet (worldOf P setup (l₁ ++ [e])) Q ≠ currentSet (worldOf P setup l₁) Q) :
    e.p.target = Q ∧ ∃ ws, currentSet (worldOf P setup (l₁ ++ [e])) Q = some ws ∧
      ((e.p.msg = .prover .updateWorkerSet ∧ currentSet (worldOf P setup l₁) Q = none ∧
          ∃ workers height, askWorkers (worldOf P setup l₁) pc.serviceRegistry sv pc.chainName = some workers ∧
            SetOf pc.signingThreshold (askKey (worldOf P setup l₁) pc.multisig kt) height workers ws) ∨
       (e.p.msg = .prover .confirmWorkerSet ∧ pendingSet (worldOf P setup l₁) Q = some ws ∧
          ∃ o, IsOperators P.X pc.encoder ws o ∧ askSet P (worldOf P setup l₁) pc.votingVerifier o = .ok true)) := by
  have hi := inv P setup txs
  obtain ⟨b, reply, st, hcall, hw⟩ := worldOf_entry hi hl
  have ht : e.p.target = Q := by
    by_contra h
    apply hne
    unfold currentSet
    rw [hw, KV.set_ne _ _ (Ne.symm h)]
  refine ⟨ht, ?_⟩
  obtain ⟨s, hs, cs, hcs⟩ := prover_state (hi.prefix hl) hQ
  have hcfg : s.config = pc := by rw [hcs]; exact Prover.config_stateAfter P.X pc cs
  have hm : ∃ m, e.p.msg = .prover m := by
    unfold call at hcall
    rw [ht, hs] at hcall
    cases hm : e.p.msg with
    | prover m => exact ⟨m, rfl⟩
    | _ => rw [hm] at hcall; simp at hcall
  obtain ⟨m, hm⟩ := hm
  obtain ⟨s', r, rfl, _, hx⟩ := call_prover_ok (by rw [ht]; exact hs) hm hcall
  have h1 : currentSet (worldOf P setup l₁) Q = s.current := by unfold currentSet; rw [hs]; rfl
  have h2 : currentSet (worldOf P setup (l₁ ++ [e])) Q = s'.current := by
    unfold currentSet; rw [hw, ht, KV.set_self]; rfl
  have h3 : pendingSet (worldOf P setup l₁) Q = s.next := by unfold pendingSet; rw [hs]
  rw [h1, h2] at hne
  rw [h1, h2, h3]
  rw [hcfg] at hx
  cases Prover.exec_effect hx with
  | first new hmm hc hn hs' hr =>
    simp only at hmm
    rw [hcfg] at hn
    obtain ⟨workers, ha, hset⟩ := Prover.setOf_makeWorkerSet hn
    refine ⟨new, by rw [hs'], Or.inl ⟨by rw [hm, hmm], hc, workers, b.height, ?_, hset⟩⟩
    unfold proverEnv at ha
    simp only at ha
    cases hk : askWorkers (worldOf P setup l₁) pc.serviceRegistry sv pc.chainName with
    | none => rw [hk] at ha; simp at ha
    | some x => rw [hk] at ha; simp only [Except.ok.injEq] at ha; rw [ha]
  | confirmed ws ops hmm hp ho hv hs' hr =>
    simp only at hmm
    rw [hcfg] at ho
    exact ⟨ws, by rw [hs'], Or.inr ⟨by rw [hm, hmm], hp, ops, Prover.isOperators_makeOperators ho, hv⟩⟩
  | reused ids b cur digest sid hmm hb hg hc hd ha hs' hr => exact absurd (by rw [hs']) hne
  | built ids msgs ws b cur digest sid hmm hw hb hp hc hd ha hs' hr => exact absurd (by rw [hs']) hne

/-- C86, safety, with the workers: if the verifier of the destination chain is watched by honest workers, the worker
set of a prover, once there is one, is replaced only by operators to whom the gateway on that chain was handed over. -/
theorem C86_rotation_transferred (P : Params) (setup : Setup) (txs : List Tx) (Q : Addr) (pc : Prover.Config) (sv : Str)
    (kt : Multisig.KeyType) (hQ : setup Q = some (.prover pc sv kt)) (vc : VV.Config)
    (hV : setup pc.votingVerifier = some (.verifier vc))
    (hvc : vc.Valid) (s : Source) (hwat : Watched P setup (log P setup txs) pc.votingVerifier vc s)
    (l₁ l₂ : List Entry) (e : Entry) (hl : log P setup txs = l₁ ++ e :: l₂) (old new : WorkerSet)
    (ho : currentSet (worldOf P setup l₁) Q = some old)
    (hn : currentSet (worldOf P setup (l₁ ++ [e])) Q = some new) (hne : old ≠ new) :
    pendingSet (worldOf P setup l₁) Q = some new ∧
      ∃ o, IsOperators P.X pc.encoder new o ∧ s.Transferred vc o := by
  have hi := inv P setup txs
  obtain ⟨ht, ws, h1, h⟩ := C86_rotation_verified P setup txs Q pc sv kt hQ l₁ l₂ e hl
    (by rw [ho, hn]; intro h; exact hne (Option.some.inj h).symm)
  rw [hn] at h1
  simp only [Option.some.injEq] at h1
  subst h1
  rcases h with ⟨_, h, _⟩ | ⟨_, hpend, o, hop, hask⟩
  · rw [ho] at h; simp at h
  refine ⟨hpend, o, hop, ?_⟩
  have hreg : Registrable new := registrable_pending (hi.prefix hl) hQ new hpend
  have hb := operators_bounds hreg hop
  have hbounds : (∀ p ∈ o.weights, p.2 ≤ u256Max) ∧ o.threshold ≤ u256Max :=
    ⟨fun p hp => by rw [hb.1 p hp]; unfold u256Max; omega, hb.2⟩
  exact transferred_of_verified hi hvc hV hwat hl hbounds hask

/-- C86, progress: as long as there is no worker set, anyone can install the active workers, if all of them have
keys. -/
theorem C86_first (P : Params) (setup : Setup) (txs : List Tx) (Q : Addr) (pc : Prover.Config) (sv : Str)
    (kt : Multisig.KeyType) (hQ : setup Q = some (.prover pc sv kt)) (n d : Nat)
    (hth : Std.MajorityThreshold.ofPair n d = .ok pc.signingThreshold) (mc : Multisig.Config)
    (hM : setup pc.multisig = some (.multisig mc)) (tx : Tx) (hsend : Sends setup tx Q .updateWorkerSet)
    (hheight : tx.block.height ≤ u64Max) (hnone : currentSet (worldAfter P setup txs) Q = none)
    (workers : List Registry.Worker)
    (ha : askWorkers (worldAfter P setup txs) pc.serviceRegistry sv pc.chainName = some workers) (hne : workers ≠ [])
    (hlen : workers.length ≤ u256Max)
    (hk : ∀ x ∈ workers, ∃ k, askKey (worldAfter P setup txs) pc.multisig kt x.address = .ok k) :
    ∃ ws, SetOf pc.signingThreshold (askKey (worldAfter P setup txs) pc.multisig kt) tx.block.height workers ws ∧
      Installs P (worldAfter P setup txs) tx Q pc ws := by
  have hi := inv P setup txs
  obtain ⟨s, hs, cs, hcs⟩ := prover_state hi hQ
  have hcfg : s.config = pc := by rw [hcs]; exact Prover.config_stateAfter P.X pc cs
  obtain ⟨_, hbond⟩ := askWorkers_distinct hi ha
  have hw : (proverEnv P (worldAfter P setup txs) tx.block pc sv kt).activeWorkers = .ok workers := by
    unfold proverEnv
    simp only [ha]
  obtain ⟨ws, hmk⟩ := Prover.makeWorkerSet_total (cfg := pc)
    (env := proverEnv P (worldAfter P setup txs) tx.block pc sv kt) hth hw hne hlen hbond hk
  obtain ⟨workers', hw', hset⟩ := Prover.setOf_makeWorkerSet hmk
  rw [hw] at hw'
  simp only [Except.ok.injEq] at hw'
  subst hw'
  have hc : s.current = none := by
    unfold currentSet at hnone
    rw [hs] at hnone
    exact hnone
  have hn : s.next = none := by
    rw [hcs] at hc ⊢
    exact none_pending P.X pc cs hc
  refine ⟨ws, hset, installs_of hQ hM hsend hs (s1 := { s with current := some ws }) ?_ rfl hn (registrable_made hmk)
    (by rw [hset.createdAt]; exact hheight)⟩
  simp only [Prover.handle, Prover.updateWorkerSet, hc, hcfg, hmk]

/-- C86, progress: when enough workers changed and no other rotation is in progress, whoever asks for it gets a
signing session for the handover to the active workers, and this set is pending. -/
theorem C86_requested (P : Params) (setup : Setup) (txs : List Tx) (Q : Addr) (pc : Prover.Config) (sv : Str)
    (kt : Multisig.KeyType) (hQ : setup Q = some (.prover pc sv kt)) (n d : Nat)
    (hth : Std.MajorityThreshold.ofPair n d = .ok pc.signingThreshold) (mc : Multisig.Config)
    (hM : setup pc.multisig = some (.multisig mc)) (hd : SetsDistinctAt P (log P setup txs) pc.multisig)
    (hroom : (log P setup txs).length < u64Max) (tx : Tx) (hsend : Sends setup tx Q .updateWorkerSet)
    (cur : WorkerSet) (hcur : currentSet (worldAfter P setup txs) Q = some cur)
    (hallow : MayAsk (worldAfter P setup txs) pc.multisig Q) (workers : List Registry.Worker)
    (hb : Buildable P (worldAfter P setup txs) Q pc sv kt tx.block.height [] cur workers)
    (hdiff : ∀ new, SetOf pc.signingThreshold (askKey (worldAfter P setup txs) pc.multisig kt) tx.block.height workers
      new → pc.diffThreshold < membershipChanges new cur) :
    ∃ new b, SetOf pc.signingThreshold (askKey (worldAfter P setup txs) pc.multisig kt) tx.block.height workers new ∧
      IsBatch P.X pc (some new) [] b ∧ Starts P (worldAfter P setup txs) tx Q pc cur b ∧
      ∃ w' es, exec P (worldAfter P setup txs) tx = .ok (w', es) ∧ pendingSet w' Q = some new := by
  have hi := inv P setup txs
  obtain ⟨s, hs, cs, hcs⟩ := prover_state hi hQ
  have hcfg : s.config = pc := by rw [hcs]; exact Prover.config_stateAfter P.X pc cs
  have hc : s.current = some cur := by
    unfold currentSet at hcur
    rw [hs] at hcur
    exact hcur
  obtain ⟨hnd, hbond⟩ := askWorkers_distinct hi hb.active
  have hw : (proverEnv P (worldAfter P setup txs) tx.block pc sv kt).activeWorkers = .ok workers := by
    unfold proverEnv
    simp only [hb.active]
  have hsz := hb.size
  obtain ⟨new, hmk⟩ := Prover.makeWorkerSet_total (cfg := pc)
    (env := proverEnv P (worldAfter P setup txs) tx.block pc sv kt) hth hw hb.nonEmpty
    (by unfold u256Max; omega) hbond hb.keys
  have hfit : Fits new := fits_made hi hth hmk
  obtain ⟨workers', hw', hset⟩ := Prover.setOf_makeWorkerSet hmk
  rw [hw] at hw'
  simp only [Except.ok.injEq] at hw'
  subst hw'
  have hlen : new.signers.length = workers.length := by
    have h1 := Prover.weight_eq_length hset hnd hb.keys
    unfold Prover.setWeight at h1
    rw [sum_ones hfit.ones] at h1
    exact h1
  have hch := hdiff new hset
  have hnext := Prover.next_exact P.X pc cs (proverEnv P (worldAfter P setup txs) tx.block pc sv kt) cur new
    (by rw [← hcs]; exact hc) hmk
  rw [← hcs, if_pos hch] at hnext
  have hmax : workers.length ≤ Prover.maxWeight pc.encoder ∧ 1 ≤ Prover.maxWeight pc.encoder := by
    unfold Prover.maxWeight
    cases pc.encoder <;> simp only [u256Max, u128Max] <;> omega
  obtain ⟨b0, digest, hib0, hdig, hl32⟩ := (Prover.C85_batch P.X pc (some new) []
    (by
      intro ws hws
      simp only [Option.some.injEq] at hws
      subst hws
      refine ⟨hfit.keys, fun e he => by rw [hfit.ones e he]; exact hmax.2, ?_⟩
      have := hfit.threshold
      omega) hb.chainId (by unfold newSigners; simp only; rw [hlen]; exact hsz)).mpr ⟨hb.addresses, by
        intro ws hws
        simp only [Option.some.injEq] at hws
        subst hws
        exact (hb.rotation new hset hch).2⟩
  have hbuild := Prover.build_of_spec hib0
  generalize hb1 : (⟨batchId P.X (([] : List Message).map (·.ccId)) (some new), b0.messageIds, b0.data,
    pc.encoder⟩ : Prover.Batch) = b at hbuild
  have hdata : b.data = b0.data := by rw [← hb1]
  have hib := (Prover.isBatch_build hbuild).1
  have hbd : b.digest P.X = .ok digest := by rw [Prover.digest_eq hib.encoder, hdata]; exact hdig
  have hsave : Prover.saveNext s new = .ok { s with next := some new } := Prover.saveNext_ok.mpr
    ⟨fun n hn => (hb.rotation new hset hch).1 n (by unfold pendingSet; rw [hs]; exact hn), rfl⟩
  obtain ⟨funds, htx⟩ := hsend.msgs
  have hst := starts_of_handle hQ hM hd hroom htx hsend.sender hsend.gas hcur hallow hs hib.encoder
    (s1 := { s with next := some new, batches := s.batches.set b.id b }) (digest := digest)
    (by
      simp only [Prover.handle, Prover.updateWorkerSet, hc, hnext, hsave]
      rw [hcfg, hbuild]
      simp only [hbd]) ⟨KV.set_self .., hcfg⟩ (by rw [hdata]; exact hdig) hl32
  obtain ⟨h1, w', es, s', h2, h3, h4⟩ := hst
  refine ⟨new, b, hset, hib, h1, w', es, h2, ?_⟩
  unfold pendingSet
  rw [h3]
  exact h4

/-- C86, progress: once the verifier of the destination chain reports the pending set as verified, anyone can have it
installed; the operators by which the destination chain knows the set exist and are unique. -/
theorem C86_confirmed (P : Params) (setup : Setup) (txs : List Tx) (Q : Addr) (pc : Prover.Config) (sv : Str)
    (kt : Multisig.KeyType) (hQ : setup Q = some (.prover pc sv kt)) (mc : Multisig.Config)
    (hM : setup pc.multisig = some (.multisig mc)) (tx : Tx) (hsend : Sends setup tx Q .confirmWorkerSet)
    (ws : WorkerSet) (hp : pendingSet (worldAfter P setup txs) Q = some ws) (hc : ws.createdAt ≤ u64Max)
    (o : Std.Operators) (ho : IsOperators P.X pc.encoder ws o)
    (hv : askSet P (worldAfter P setup txs) pc.votingVerifier o = .ok true) :
    Installs P (worldAfter P setup txs) tx Q pc ws := by
  have hi := inv P setup txs
  obtain ⟨s, hs, cs, hcs⟩ := prover_state hi hQ
  have hcfg : s.config = pc := by rw [hcs]; exact Prover.config_stateAfter P.X pc cs
  have hn : s.next = some ws := by
    unfold pendingSet at hp
    rw [hs] at hp
    exact hp
  have hreg : Registrable ws := registrable_pending hi hQ ws hp
  obtain ⟨_, _, _, _, c, _, _, _, _, _, _, _, htr, _⟩ := Prover.C52_proposed P.X pc cs ws (by rw [← hcs]; exact hn)
  obtain ⟨o', ho'⟩ := operators_of_transfer htr
  have heq : o' = o := operators_unique hreg (Prover.isOperators_makeOperators ho') ho
  subst heq
  refine installs_of hQ hM hsend hs (s1 := { s with current := some ws, next := none }) ?_ rfl rfl hreg hc
  have hve : (proverEnv P (worldAfter P setup txs) tx.block pc sv kt).verified o' = .ok true := hv
  simp only [Prover.handle, Prover.confirmWorkerSet, hn, hcfg, ho', hve]

end Amp.Chain
