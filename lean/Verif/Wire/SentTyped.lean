import Verif.Wire.StoreTyped
import Verif.Wire.TextChain
import Verif.Chain.ProverLemmas
import Verif.Router.Lemmas
import Verif.Nexus.Props
import Verif.Gateway.Props

/-!
# Lemmas for C95: what contracts send is of its type
-/

namespace Amp.Wire

open Amp.Router (ChainName Lowering CCId Message)
open Amp.Chain (Msg Params Block World Store Setup Pending Entry Tx Act)

variable {L : Lowering}

/-- a message that nobody reads as another message -/
def Canon (m : Msg) : Prop := ∀ p, understood p m = none ∨ understood p m = some m

theorem canon_verifier (m : VV.Msg) : Canon (.verifier m) := by
  intro p; cases p <;> cases m <;> simp [understood, routed]

theorem canon_rewards (m : Rewards.Msg) : Canon (.rewards m) := by
  intro p; cases p <;> cases m <;> simp [understood, routed]

theorem canon_multisig (m : Multisig.Msg) : Canon (.multisig m) := by
  intro p; cases p <;> cases m <;> simp [understood, routed]

theorem canon_route (ms : List Message) : Canon (.route ms) := by
  intro p; cases p <;> simp [understood, routed]

/-- what is fine to send -/
def Sendable (L : Lowering) (m : Msg) : Prop := Typed L m ∧ Canon m

theorem outs_verifier {H : VV.Hashes} {s s' : VV.State} {c : VV.Call} {r : VV.Resp} (h : VV.exec H s c = .ok (s', r)) :
    ∀ o ∈ Act.outs (.verifier c r), Sendable L o.2 := by
  intro o ho
  simp only [Act.outs, List.mem_map] at ho
  obtain ⟨x, hx, rfl⟩ := ho
  refine ⟨?_, canon_rewards _⟩
  show x.eventId ≠ []
  unfold VV.exec at h
  split at h
  · obtain ⟨_, _, _, _, _, _, _, e, _⟩ := VV.verifyMessages_ok h
    rw [e] at hx; simp at hx
  · obtain ⟨_, _, _, _, _, rfl⟩ := VV.vote_ok h
    simp at hx
  · obtain ⟨_, _, _, _, _, rfl⟩ := VV.endPoll_ok h
    obtain ⟨a, _, rfl⟩ := List.mem_map.mp hx
    exact showNat_ne_nil _
  · obtain ⟨_, _, _, _, _, _, _, _, rfl, _⟩ := VV.verifyWorkerSet_ok h
    simp at hx

theorem outs_multisig {C : Multisig.Crypto} {i : Multisig.WorkerSet → Str} {s s' : Multisig.State} {c : Multisig.Call}
    {r : Multisig.Resp} (h : Multisig.exec C i s c = .ok (s', r)) :
    ∀ o ∈ Act.outs (.multisig c r), Sendable L o.2 := by
  intro o ho
  simp only [Act.outs, List.mem_map] at ho
  obtain ⟨x, hx, rfl⟩ := ho
  refine ⟨?_, canon_rewards _⟩
  show x.eventId ≠ []
  rcases Multisig.exec_ok h with ⟨wid, msg, chain, ok, hm, h⟩ | ⟨i, b, hm, h⟩ | ⟨raw, ws, hm, hd, e1, e2⟩ |
    ⟨kt, b, k, hm, hk, e1, e2⟩ | ⟨a, hm, hg, e1, e2⟩ | ⟨a, hm, hg, e1, e2⟩
  · obtain ⟨_, _, _, _, _, _, _, e⟩ := Multisig.start_ok.mp h
    rw [e] at hx; simp at hx
  · obtain ⟨_, _, _, _, _, _, _, _, _, _, _, _, _, _, e⟩ := Multisig.submit_ok.mp h
    rw [e] at hx
    simp only [Multisig.signingResponse, List.mem_singleton] at hx
    rw [hx]; exact showNat_ne_nil _
  all_goals rw [e2] at hx; simp at hx

theorem data_multisig {C : Multisig.Crypto} {i : Multisig.WorkerSet → Str} {s s' : Multisig.State} {c : Multisig.Call}
    {r : Multisig.Resp} (h : Multisig.exec C i s c = .ok (s', r)) : ∀ n, r.data = some n → n ≤ u64Max := by
  intro n hn
  rcases Multisig.exec_ok h with ⟨wid, msg, chain, ok, hm, h⟩ | ⟨i, b, hm, h⟩ | ⟨raw, ws, hm, hd, e1, e2⟩ |
    ⟨kt, b, k, hm, hk, e1, e2⟩ | ⟨a, hm, hg, e1, e2⟩ | ⟨a, hm, hg, e1, e2⟩
  · obtain ⟨_, _, _, hc, _, _, _, e⟩ := Multisig.start_ok.mp h
    rw [e] at hn
    simp only [Option.some.injEq] at hn
    omega
  · obtain ⟨_, _, _, _, _, _, _, _, _, _, _, _, _, _, e⟩ := Multisig.submit_ok.mp h
    rw [e] at hn
    simp [Multisig.signingResponse] at hn
  all_goals rw [e2] at hn; simp at hn

theorem outs_gateway {s s' : Gateway.State} {c : Gateway.Call} {r : Gateway.Resp} (h : Gateway.exec s c = .ok (s', r))
    (ht : Typed L (.gateway c.msg)) : ∀ o ∈ Act.outs (.gateway c r), Sendable L o.2 := by
  have key : ∀ ms v u, (∀ m ∈ ms, MessageTyped L m) → Gateway.partitionByVerified c.verifier ms = .ok (v, u) →
      (∀ m ∈ v, MessageTyped L m) ∧ ∀ m ∈ u, MessageTyped L m := by
    intro ms v u hms hp
    unfold Gateway.partitionByVerified at hp
    split at hp
    · simp at hp
    simp only [Except.ok.injEq, List.partition_eq_filter_filter, Prod.mk.injEq] at hp
    rw [← hp.1, ← hp.2]
    exact ⟨fun m hm => hms m (List.mem_filter.mp hm).1, fun m hm => hms m (List.mem_filter.mp hm).1⟩
  intro o ho
  simp only [Act.outs, List.mem_map] at ho
  obtain ⟨x, hx, rfl⟩ := ho
  unfold Gateway.exec at h
  split at h
  · rename_i ms hm
    rw [hm] at ht
    unfold Gateway.verifyMessages at h
    split at h
    · simp only [Except.ok.injEq, Prod.mk.injEq] at h; rw [← h.2] at hx; simp at hx
    split at h
    · simp at h
    split at h
    · simp at h
    rename_i u hp
    split at h
    · simp only [Except.ok.injEq, Prod.mk.injEq] at h; rw [← h.2] at hx; simp at hx
    simp only [Except.ok.injEq, Prod.mk.injEq] at h
    rw [← h.2] at hx
    simp only [List.mem_singleton] at hx
    subst hx
    exact ⟨(key _ _ _ ht hp).2, canon_verifier _⟩
  · rename_i ms hm
    rw [hm] at ht
    split at h
    · unfold Gateway.routeOutgoing at h
      split at h
      · simp at h
      simp only [Except.ok.injEq, Prod.mk.injEq] at h; rw [← h.2] at hx; simp at hx
    · unfold Gateway.routeIncoming at h
      split at h
      · simp at h
      split at h
      · simp at h
      rename_i v u hp
      simp only [Except.ok.injEq, Prod.mk.injEq] at h
      rw [← h.2] at hx
      simp only at hx
      split at hx
      · simp at hx
      simp only [List.mem_singleton] at hx
      subst hx
      exact ⟨(key _ _ _ ht hp).1, canon_route _⟩

theorem outs_router {s s' : Router.State} {c : Router.Call} {r : Router.Resp} (h : Router.exec s c = .ok (s', r))
    (ht : Typed L (.router c.msg)) : ∀ o ∈ Act.outs (.router c r), Sendable L o.2 := by
  intro o ho
  simp only [Act.outs, List.mem_map] at ho
  obtain ⟨d, hd, rfl⟩ := ho
  refine ⟨?_, canon_route _⟩
  obtain ⟨ms, hm⟩ := Chain.dispatch_mem h hd
  rw [hm] at ht
  unfold Router.exec at h
  rw [hm] at h
  obtain ⟨_, _, h2, _⟩ := Router.routeMessages_ok h
  obtain ⟨g, hg, hgd⟩ := mapE_mem_right h2 hd
  intro m hmm
  refine ht m ?_
  rw [← Router.groupRuns_flatten (fun m : Message => m.destinationChain) ms]
  have : d.msgs = g.2 := by
    unfold Router.dispatchGroup at hgd
    split at hgd
    · split at hgd
      · simp at hgd
      · simp only [Except.ok.injEq] at hgd; rw [← hgd]
    · split at hgd
      · simp only [Except.ok.injEq] at hgd; rw [← hgd]
      · simp at hgd
  rw [this] at hmm
  exact List.mem_flatten.mpr ⟨g.2, List.mem_map.mpr ⟨g, hg, rfl⟩, hmm⟩

theorem toRouter_typed {n : Nexus.NexusMsg} (h : NexusTyped L n) : MessageTyped L (Nexus.toRouter n) := by
  refine ⟨⟨h.sourceChain, ?_⟩, h.sourceAddress, h.destinationChain, h.destinationAddress, h.payloadHash⟩
  simp [Nexus.toRouter]

theorem outs_nexus {s s' : Nexus.State} {c : Nexus.Call} {r : Nexus.Resp} (h : Nexus.exec s c = .ok (s', r))
    (ht : Typed L (.nexus c.msg)) : ∀ o ∈ Act.outs (.nexus c r), Sendable L o.2 := by
  intro o ho
  simp only [Act.outs, List.mem_map] at ho
  obtain ⟨d, hd, rfl⟩ := ho
  refine ⟨?_, canon_route _⟩
  rcases Nexus.exec_cases h with ⟨ms, _, _, e, _⟩ | ⟨ns, hm, _, _, e⟩
  · rw [e] at hd; simp at hd
  · rw [hm] at ht
    rw [e] at hd
    simp only at hd
    split at hd
    · simp at hd
    simp only [List.mem_singleton] at hd
    subst hd
    intro m hmm
    obtain ⟨n, hn, rfl⟩ := List.mem_map.mp hmm
    exact toRouter_typed (ht n hn)

theorem keyFits_bytes {k : Multisig.PublicKey} (h : KeyFits k) : IsBytes k.bytes := by
  cases k <;> exact h.1

theorem askKey_bytes {w : World} (hw : WorldTyped L w) {a worker : Addr} {kt : Multisig.KeyType}
    {k : Multisig.PublicKey} (h : Chain.askKey w a kt worker = .ok k) : IsBytes k.bytes := by
  unfold Chain.askKey at h
  split at h
  · rename_i s hs
    split at h
    · rename_i k' hk
      simp only [Except.ok.injEq] at h
      subst h
      exact keyFits_bytes (key_fits (hw _ _ hs) hk)
    · cases h
  · cases h

theorem makeWorkerSet_typed {P : Params} {b : Block} {w : World} (hw : WorldTyped L w) (hb : b.height ≤ u64Max)
    {cfg : Prover.Config} {sv : Str} {kt : Multisig.KeyType} {ws : Multisig.WorkerSet}
    (h : Prover.makeWorkerSet cfg (Chain.proverEnv P w b cfg sv kt) = .ok ws) : SetTyped (Prover.toRaw ws) := by
  obtain ⟨workers, keys, sn, _, _, hsn, hk, rfl⟩ := Prover.makeWorkerSet_ok h
  refine ⟨?_, ?_, hb⟩
  · intro e he
    simp only [Prover.toRaw, List.mem_map] at he
    obtain ⟨x, hx, rfl⟩ := he
    have hx := mem_ofList hx
    obtain ⟨_, _, h1, h2⟩ := (Prover.entries_mem hk x).mp hx
    refine ⟨?_, askKey_bytes hw h2⟩
    show x.2.weight ≤ u256Max
    rw [h1]; decide
  · show sn.quorum ≤ u256Max
    unfold Std.Snapshot.new at hsn
    split at hsn
    · simp at hsn
    split at hsn
    · simp at hsn
    split at hsn
    · simp at hsn
    rename_i q hq
    split at hsn
    · simp at hsn
    simp only [Except.ok.injEq] at hsn
    rw [← hsn]
    unfold Std.mulCeil at hq
    dsimp only at hq
    split at hq <;> split at hq
    all_goals first
      | (rename_i hle; simp only [Except.ok.injEq] at hq; rw [← hq]; exact hle)
      | cases hq

theorem digest_bytes {X : Encoding.Ext} (hX : ∀ b, IsBytes (X.keccak b)) {b : Prover.Batch} {d : Encoding.Bytes}
    (h : b.digest X = .ok d) : IsBytes d := by
  unfold Prover.Batch.digest at h
  split at h
  · unfold Encoding.Abi.msgDigest at h
    split at h
    · simp at h
    · simp only [Except.ok.injEq] at h; rw [← h]; exact hX _
  · unfold Encoding.Bcs.msgDigest at h
    split at h
    · simp at h
    · simp only [Except.ok.injEq] at h; rw [← h]; exact hX _

theorem handle_typed {P : Params} (hX : ∀ b, IsBytes (P.X.keccak b)) {b : Block} {w : World} (hw : WorldTyped L w)
    (hb : b.height ≤ u64Max) {s s' : Prover.State} {sv : Str} {kt : Multisig.KeyType} {m : Prover.Msg} {out : Prover.Out}
    (hs : StoreTyped L (.prover s sv kt))
    (h : Prover.handle P.X s (Chain.proverEnv P w b s.config sv kt) m = .ok (s', out)) :
    Sendable L (.multisig out.toMultisig) ∧ StoreTyped L (.prover s' sv kt) := by
  refine ⟨⟨?_, canon_multisig _⟩, ?_⟩
  · cases m with
    | constructProof ids =>
      obtain ⟨msgs, s1, bt, cur, d, _, _, _, hd, _, e⟩ := Prover.constructProof_ok h
      rw [e]; exact ⟨digest_bytes hX hd, hs.1⟩
    | updateWorkerSet =>
      rcases Prover.updateWorkerSet_ok h with ⟨_, new, hn, _, e⟩ | ⟨cur, new, bt, d, _, _, _, _, hd, _, e⟩
      · rw [e]; exact makeWorkerSet_typed hw hb hn
      · rw [e]; exact ⟨digest_bytes hX hd, hs.1⟩
    | confirmWorkerSet =>
      obtain ⟨ws, ops, hn, _, _, _, e⟩ := Prover.confirmWorkerSet_ok h
      rw [e]; exact hs.2 ws hn
  · have hnext : ∀ new, Prover.nextWorkerSet s (Chain.proverEnv P w b s.config sv kt) = .ok (some new) →
        SetTyped (Prover.toRaw new) := by
      intro new hnw
      obtain ⟨n, c, hmk, _, e⟩ := Prover.nextWorkerSet_ok.mp hnw
      split at e
      · simp only [Option.some.injEq] at e
        rw [e]; exact makeWorkerSet_typed hw hb hmk
      · simp at e
    cases m with
    | constructProof ids =>
      obtain ⟨msgs, s1, bt, cur, d, _, hsrc, _, _, e, _⟩ := Prover.constructProof_ok h
      rw [e]
      rcases hsrc with ⟨_, rfl⟩ | ⟨_, hnb⟩
      · exact hs
      · obtain ⟨ws, hnw, _, _, rfl⟩ := Prover.newBatch_ok.mp hnb
        refine ⟨hs.1, ?_⟩
        intro x hx
        cases ws with
        | none => exact hs.2 x hx
        | some y =>
          simp only [Prover.pendingAfter, Option.some.injEq] at hx
          rw [← hx]; exact hnext y hnw
    | updateWorkerSet =>
      rcases Prover.updateWorkerSet_ok h with ⟨_, new, hn, e, _⟩ | ⟨cur, new, bt, d, _, hnw, _, _, _, e, _⟩
      · rw [e]; exact hs
      · rw [e]
        refine ⟨hs.1, ?_⟩
        intro x hx
        simp only [Option.some.injEq] at hx
        rw [← hx]; exact hnext new hnw
    | confirmWorkerSet =>
      obtain ⟨ws, ops, hn, _, _, e, _⟩ := Prover.confirmWorkerSet_ok h
      rw [e]
      exact ⟨hs.1, fun x hx => by simp at hx⟩

theorem prover_exec_typed {P : Params} (hX : ∀ b, IsBytes (P.X.keccak b)) {b : Block} {w : World} (hw : WorldTyped L w)
    (hb : b.height ≤ u64Max) {s s' : Prover.State} {sv : Str} {kt : Multisig.KeyType} {m : Prover.Msg} {r : Prover.Resp}
    {reply : Option (Option Nat)} (hs : StoreTyped L (.prover s sv kt))
    (h : Prover.exec P.X s ⟨m, Chain.proverEnv P w b s.config sv kt, reply⟩ = .ok (s', r)) :
    StoreTyped L (.prover s' sv kt) := by
  unfold Prover.exec at h
  split at h
  · simp at h
  rename_i s1 out ho
  have := (handle_typed hX hw hb hs ho).2
  split at h
  · simp at h
  split at h
  · simp only [Except.ok.injEq, Prod.mk.injEq] at h
    rw [← h.1]; exact this
  · split at h
    · simp at h
    · rename_i hr
      simp only [Except.ok.injEq, Prod.mk.injEq] at h
      rw [← h.1]
      unfold Prover.reply at hr
      split at hr
      · simp at hr
      split at hr
      · simp at hr
      simp only [Except.ok.injEq, Prod.mk.injEq] at hr
      rw [← hr.1]; exact this

/-- what a call leaves and what it sends -/
theorem call_typed {P : Params} (hX : ∀ b, IsBytes (P.X.keccak b)) {b : Block} {w : World} (hw : WorldTyped L w)
    (hb : b.height ≤ u64Max) (htm : b.time ≤ u64Max) {p : Pending} (hp : Typed L p.msg) (hf : CoinsFit p.funds) {reply : Option (Option Nat)} {st : Store} {a : Act}
    (h : Chain.call P b w p reply = .ok (st, a)) : StoreTyped L st ∧ ∀ o ∈ a.outs, Sendable L o.2 := by
  unfold Chain.call at h
  split at h
  · simp at h
  · rename_i s hs
    split at h
    · dsimp only at h
      split at h
      · simp at h
      · rename_i hx
        simp only [Except.ok.injEq, Prod.mk.injEq] at h
        rw [← h.1, ← h.2]
        exact ⟨store_verifier hx (hw _ _ hs), outs_verifier hx⟩
    · simp at h
  · rename_i s hs
    split at h
    · rename_i m hm
      try dsimp only at h
      split at h
      · simp at h
      · rename_i hx
        simp only [Except.ok.injEq, Prod.mk.injEq] at h
        rw [← h.1, ← h.2]
        have hg : Typed L (.gateway m) := by
          cases hmm : p.msg <;> rw [hmm] at hm hp <;> simp only [Msg.toGateway, Option.some.injEq, reduceCtorEq] at hm
          · rw [← hm]; exact hp
          · rw [← hm]; exact hp
        exact ⟨store_gateway hx hg (hw _ _ hs), outs_gateway hx hg⟩
    · simp at h
  · split at h
    · rename_i m hm
      try dsimp only at h
      split at h
      · simp at h
      · rename_i hx
        simp only [Except.ok.injEq, Prod.mk.injEq] at h
        rw [← h.1, ← h.2]
        refine ⟨trivial, outs_router hx ?_⟩
        cases hmm : p.msg <;> rw [hmm] at hm hp <;> simp only [Msg.toRouter, Option.some.injEq, reduceCtorEq] at hm
        · rw [← hm]; exact hp
        · rw [← hm]; exact hp
    · simp at h
  · split at h
    · rename_i m hm
      try dsimp only at h
      split at h
      · simp at h
      · rename_i hx
        simp only [Except.ok.injEq, Prod.mk.injEq] at h
        rw [← h.1, ← h.2]
        refine ⟨trivial, outs_nexus hx ?_⟩
        cases hmm : p.msg <;> rw [hmm] at hm hp <;> simp only [Msg.toNexus, Option.some.injEq, reduceCtorEq] at hm
        · rw [← hm]; exact hp
        · rw [← hm]; exact hp
    · simp at h
  · rename_i s hs
    split at h
    · split at h
      · simp at h
      · rename_i hx
        simp only [Except.ok.injEq, Prod.mk.injEq] at h
        rw [← h.1, ← h.2]
        exact ⟨store_registry hx hf htm (hw _ _ hs), fun o ho => by simp [Act.outs] at ho⟩
    · simp at h
  · split at h
    · split at h
      · simp at h
      · simp only [Except.ok.injEq, Prod.mk.injEq] at h
        rw [← h.1, ← h.2]
        exact ⟨trivial, fun o ho => by simp [Act.outs] at ho⟩
    · simp at h
  · rename_i s hs
    split at h
    · rename_i m hm
      rw [hm] at hp
      split at h
      · simp at h
      · rename_i hx
        simp only [Except.ok.injEq, Prod.mk.injEq] at h
        rw [← h.1, ← h.2]
        exact ⟨store_multisig hx hp hb (hw _ _ hs), outs_multisig hx⟩
    · simp at h
  · rename_i s sv kt hs
    split at h
    · rename_i m hm
      try dsimp only at h
      split at h
      · simp at h
      · rename_i s' r hx
        simp only [Except.ok.injEq, Prod.mk.injEq] at h
        rw [← h.1, ← h.2]
        refine ⟨prover_exec_typed hX hw hb (hw _ _ hs) hx, ?_⟩
        intro o ho
        simp only [Act.outs, List.mem_singleton] at ho
        rw [ho]
        cases hh : Prover.handle P.X s (Chain.proverEnv P w b s.config sv kt) m with
        | error e =>
          unfold Prover.exec at hx
          rw [hh] at hx
          simp at hx
        | ok y =>
          obtain ⟨s1, out⟩ := y
          have := Chain.exec_out hx hh
          show Sendable L (.multisig r.out.toMultisig)
          rw [this]
          exact (handle_typed hX hw hb (hw _ _ hs) hh).1
    · simp at h

end Amp.Wire
