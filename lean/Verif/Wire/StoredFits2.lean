import Verif.Wire.StoredFits

/-!
# Lemmas for C98: what the rewards, multisig and prover contracts store stays in range
-/

namespace Amp.Wire

open Amp.Router (ChainName Lowering CCId Message)
open Amp.Chain (Msg Params Block World Store Setup Pending Entry Act)

variable {L : Lowering}

/-! ### Rewards -/

structure RewardsFits (s : Rewards.State) : Prop where
  params : ParamsInRange s.params
  updated : EpochInRange s.lastUpdated
  tallies : ∀ k t, s.tallies k = some t → TallyInRange t
  events : ∀ k n, s.events k = some n → k.1 ≠ [] ∧ n ≤ u64Max
  pools : ∀ k n, OMap.get? s.pools k = some n → n ≤ u128Max
  watermarks : ∀ k n, s.watermarks k = some n → n ≤ u64Max

theorem fits_rewards {s : Rewards.State} : StoreFits L (.rewards s) ↔ RewardsFits s := by
  constructor
  · intro h
    have hp : ParamsInRange s.params ∧ EpochInRange s.lastUpdated := h.1 .params _ rfl
    exact ⟨hp.1, hp.2, fun k t ht => h.1 (.tally k.1 k.2) (.tally k.1 t) (by simp [stored, ht]),
      fun k n hn => h.1 (.event k.1 k.2) (.event k.1 k.2 n) (by simp [stored, hn]),
      fun k n hn => h.1 (.pool k) (.pool k n) (by simp [stored, hn]),
      fun k n hn => h.1 (.watermark k) (.epoch n) (by simp [stored, hn])⟩
  · intro h
    refine ⟨?_, fun p sv kt e => by cases e⟩
    intro k v hv
    cases k <;> simp only [stored, Option.some.injEq, Option.map_eq_some_iff, reduceCtorEq] at hv
    · rw [← hv]; exact ⟨h.params, h.updated⟩
    · obtain ⟨p, hp, rfl⟩ := hv; exact h.tallies _ _ hp
    · obtain ⟨p, hp, rfl⟩ := hv; exact h.events _ _ hp
    · obtain ⟨p, hp, rfl⟩ := hv; exact h.pools _ _ hp
    · obtain ⟨p, hp, rfl⟩ := hv; exact h.watermarks _ _ hp

theorem currentEpoch_fits {s : Rewards.State} {h : Nat} {e : Rewards.Epoch} (he : Rewards.currentEpoch s h = .ok e)
    (hh : h ≤ u64Max) : EpochInRange e ∧ e.start ≤ h := by
  unfold Rewards.currentEpoch at he
  split at he
  · simp at he
  rename_i h1
  split at he
  · simp at he
  dsimp only at he
  split at he
  · simp at he
  rename_i h2
  simp only [Except.ok.injEq] at he
  rw [← he]
  have := Nat.div_mul_le_self (h - s.lastUpdated.start) s.params.duration
  refine ⟨⟨not_lt.mp h2, ?_⟩, ?_⟩ <;> simp only <;> omega

theorem record_fits {t t' : Rewards.Tally} {a : Addr} (h : t.record a = .ok t') (ht : TallyInRange t) : TallyInRange t' := by
  unfold Rewards.Tally.record at h
  split at h
  · simp only [Except.ok.injEq] at h
    rw [← h]
    refine ⟨ht.eventCount, ?_, OMap.sorted_set ht.sorted _ _, ht.epoch, ht.params⟩
    intro e he
    rcases OMap.mem_set he with rfl | he
    · show 1 ≤ u64Max; decide
    · exact ht.counts _ he
  · split at h
    · simp at h
    rename_i hle
    simp only [Except.ok.injEq] at h
    rw [← h]
    refine ⟨ht.eventCount, ?_, OMap.sorted_set ht.sorted _ _, ht.epoch, ht.params⟩
    intro e he
    rcases OMap.mem_set he with rfl | he
    · exact not_lt.mp hle
    · exact ht.counts _ he

theorem bump_fits {t t' : Rewards.Tally} {b : Bool} (h : Rewards.bumpEvents b t = .ok t') (ht : TallyInRange t) :
    TallyInRange t' := by
  unfold Rewards.bumpEvents at h
  split at h
  · split at h
    · simp at h
    rename_i hle
    simp only [Except.ok.injEq] at h
    rw [← h]
    exact ⟨not_lt.mp hle, ht.counts, ht.sorted, ht.epoch, ht.params⟩
  · simp only [Except.ok.injEq] at h
    rw [← h]; exact ht

theorem pools_set {s : Rewards.State} (hs : RewardsFits s) {k : Addr} {n : Nat} (hn : n ≤ u128Max) :
    RewardsFits { s with pools := s.pools.set k n } := by
  refine ⟨hs.params, hs.updated, hs.tallies, hs.events, ?_, hs.watermarks⟩
  intro x m hm
  have hm : OMap.get? (s.pools.set k n) x = some m := hm
  rw [OMap.get?_set] at hm
  split at hm
  · simp only [Option.some.injEq] at hm
    rw [← hm]; exact hn
  · exact hs.pools _ _ hm

theorem poolOf_fits {s : Rewards.State} (hs : RewardsFits s) (k : Addr) : Rewards.poolOf s k ≤ u128Max := by
  unfold Rewards.poolOf
  split
  · exact Nat.zero_le _
  · rename_i b hb; exact hs.pools _ _ hb

theorem rewards_kept {s s' : Rewards.State} {c : Rewards.Call} {r : Rewards.Resp} (h : Rewards.exec s c = .ok (s', r))
    (ht : Typed L (.rewards c.msg)) (hh : c.height ≤ u64Max) (hs : RewardsFits s) : RewardsFits s' := by
  unfold Rewards.exec at h
  split at h
  · rename_i ev w hm
    rw [hm] at ht
    have ht : ev ≠ [] := ht
    unfold Rewards.recordParticipation at h
    split at h
    · simp at h
    rename_i cur hcur
    have hc := currentEpoch_fits hcur hh
    split at h
    rename_i num isNew events hev
    dsimp only at h
    split at h
    · simp at h
    rename_i t1 ht1
    split at h
    · simp at h
    rename_i t2 ht2
    simp only [Except.ok.injEq, Prod.mk.injEq] at h
    rw [← h.1]
    have h0 : TallyInRange (match s.tallies (c.sender, num) with
        | some t => t
        | none => ⟨0, [], cur, s.params⟩) := by
      split
      · rename_i t htt; exact hs.tallies _ _ htt
      · exact ⟨Nat.zero_le _, fun e he => (List.not_mem_nil he).elim, List.Pairwise.nil, hc.1, hs.params⟩
    have h2 := bump_fits ht2 (record_fits ht1 h0)
    refine ⟨hs.params, hs.updated, ?_, ?_, hs.pools, hs.watermarks⟩
    · intro k t hk
      have hk : (s.tallies.set (c.sender, t2.epoch.num) t2) k = some t := hk
      by_cases hx : k = (c.sender, t2.epoch.num)
      · subst hx
        rw [KV.set_self] at hk
        simp only [Option.some.injEq] at hk
        rw [← hk]; exact h2
      · rw [KV.set_ne _ _ hx] at hk
        exact hs.tallies _ _ hk
    · intro k n hk
      have hk : events k = some n := hk
      unfold Rewards.loadOrStoreEvent at hev
      split at hev
      · simp only [Prod.mk.injEq] at hev
        rw [← hev.2.2] at hk
        by_cases hx : k = (ev, c.sender)
        · subst hx
          rw [KV.set_self] at hk
          simp only [Option.some.injEq] at hk
          rw [← hk]
          exact ⟨ht, hc.1.1⟩
        · rw [KV.set_ne _ _ hx] at hk
          exact hs.events _ _ hk
      · simp only [Prod.mk.injEq] at hev
        rw [← hev.2.2] at hk
        exact hs.events _ _ hk
  · unfold Rewards.addRewards at h
    split at h
    · simp at h
    split at h
    · simp at h
    split at h
    · simp at h
    split at h
    · simp at h
    rename_i hle
    simp only [Except.ok.injEq, Prod.mk.injEq] at h
    rw [← h.1]
    exact pools_set hs (not_lt.mp hle)
  · rename_i k n hm
    unfold Rewards.distribute at h
    dsimp only at h
    split at h
    · simp at h
    split at h
    · simp at h
    split at h
    · simp at h
    rename_i hfr hle
    split at h
    · simp at h
    split at h
    · simp at h
    rename_i s1 rw1 hpr
    simp only [Except.ok.injEq, Prod.mk.injEq] at h
    rw [← h.1]
    have h1 : RewardsFits s1 := by
      unfold Rewards.processRewards at hpr
      split at hpr
      · simp at hpr
      split at hpr
      · simp at hpr
      split at hpr
      · simp at hpr
      simp only [Except.ok.injEq, Prod.mk.injEq] at hpr
      rw [← hpr.1]
      have := poolOf_fits hs k
      exact pools_set hs (by omega)
    refine ⟨h1.params, h1.updated, h1.tallies, h1.events, h1.pools, ?_⟩
    intro x m hx
    rename_i cur hcur _ _
    have hx : (s1.watermarks.set k (Rewards.toEpoch (Rewards.fromEpoch s k) (Rewards.limitOf n) cur.num)) x = some m := hx
    by_cases hk : x = k
    · subst hk
      rw [KV.set_self] at hx
      simp only [Option.some.injEq] at hx
      rw [← hx]
      unfold Rewards.toEpoch
      have := Nat.min_le_left (Rewards.fromEpoch s x + Rewards.limitOf n - 1) (cur.num - 2)
      omega
    · rw [KV.set_ne _ _ hk] at hx
      exact h1.watermarks _ _ hx
  · rename_i p hm
    rw [hm] at ht
    unfold Rewards.updateParams at h
    split at h
    · simp at h
    split at h
    · simp at h
    rename_i cur hcur
    have hc := currentEpoch_fits hcur hh
    split at h
    · simp at h
    split at h
    · split at h
      · simp at h
      rename_i hle
      simp only [Except.ok.injEq, Prod.mk.injEq] at h
      rw [← h.1]
      exact ⟨ht, ⟨not_lt.mp hle, hh⟩, hs.tallies, hs.events, hs.pools, hs.watermarks⟩
    · simp only [Except.ok.injEq, Prod.mk.injEq] at h
      rw [← h.1]
      exact ⟨ht, hc.1, hs.tallies, hs.events, hs.pools, hs.watermarks⟩

/-! ### Multisig -/

structure MultisigFits (s : Multisig.State) : Prop where
  counter : s.counter ≤ u64Max
  sessions : ∀ id se, s.sessions id = some se → se.id ≤ u64Max ∧ IsBytes se.msg
  sets : ∀ id ws, s.workerSets id = some ws → FullSetTyped ws ∧ OMap.Sorted ws.signers

theorem fits_multisig {s : Multisig.State} (ht : StoreTyped L (.multisig s)) :
    StoreFits L (.multisig s) ↔ MultisigFits s := by
  constructor
  · intro h
    refine ⟨h.1 .sessionCounter _ rfl, fun id se hse => ?_,
      fun id ws hws => h.1 (.registeredSet id) (.workerSet ws) (by simp [stored, hws])⟩
    have := h.1 (.session id) (.session se) (by simp [stored, hse])
    exact ⟨this.1, this.2.1⟩
  · intro h
    refine ⟨?_, fun p sv kt e => by cases e⟩
    intro k v hv
    cases k <;> simp only [stored, Option.some.injEq, Option.map_eq_some_iff, reduceCtorEq] at hv
    · rw [← hv]; exact h.counter
    · obtain ⟨p, hp, rfl⟩ := hv
      exact ⟨(h.sessions _ _ hp).1, (h.sessions _ _ hp).2, ht.sessions _ _ hp⟩
    · obtain ⟨p, hp, rfl⟩ := hv; exact ht.signatures _ _ _ hp
    · obtain ⟨p, hp, rfl⟩ := hv; exact h.sets _ _ hp
    · obtain ⟨p, hp, rfl⟩ := hv; exact ht.keys _ _ hp
    · obtain ⟨p, hp, rfl⟩ := hv; trivial

theorem decode_order {r : Multisig.RawWorkerSet} {ws : Multisig.WorkerSet} (h : r.decode = .ok ws) :
    OMap.Sorted ws.signers := by
  unfold Multisig.RawWorkerSet.decode at h
  split at h
  · simp at h
  split at h
  · simp at h
  simp only [Except.ok.injEq] at h
  rw [← h]
  exact OMap.sorted_ofList _

theorem multisig_kept {C : Multisig.Crypto} {i : Multisig.WorkerSet → Str} {s s' : Multisig.State} {c : Multisig.Call}
    {r : Multisig.Resp} (h : Multisig.exec C i s c = .ok (s', r)) (ht : Typed L (.multisig c.msg))
    (hs : MultisigFits s) : MultisigFits s' := by
  rcases Multisig.exec_ok h with ⟨wid, msg, chain, ok, hm, h⟩ | ⟨i, b, hm, h⟩ | ⟨raw, ws, hm, hd, e1, e2⟩ |
    ⟨kt, b, k, hm, hk, e1, e2⟩ | ⟨a, hm, hg, e1, e2⟩ | ⟨a, hm, hg, e1, e2⟩
  · rw [hm] at ht
    obtain ⟨_, _, _, hc, _, _, e, _⟩ := Multisig.start_ok.mp h
    rw [e]
    refine ⟨hc, ?_, hs.sets⟩
    intro id se hse
    have hse : (s.sessions.set (s.counter + 1) ⟨s.counter + 1, wid, msg, .pending⟩) id = some se := hse
    by_cases hi : id = s.counter + 1
    · subst hi
      rw [KV.set_self] at hse
      simp only [Option.some.injEq] at hse
      rw [← hse]
      exact ⟨hc, ht.1⟩
    · rw [KV.set_ne _ _ hi] at hse
      exact hs.sessions _ _ hse
  · obtain ⟨se0, ws, sg, sig, w, k1, k2, k3, k4, k5, k6, k7, k8, e, _⟩ := Multisig.submit_ok.mp h
    rw [e]
    refine ⟨hs.counter, ?_, hs.sets⟩
    intro id se hse
    have hse : (s.sessions.set se0.id { se0 with state := Multisig.nextState se0 ws w c.height }) id = some se := hse
    by_cases hi : id = se0.id
    · subst hi
      rw [KV.set_self] at hse
      simp only [Option.some.injEq] at hse
      rw [← hse]
      have := hs.sessions _ _ k1
      exact this
    · rw [KV.set_ne _ _ hi] at hse
      exact hs.sessions _ _ hse
  · rw [hm] at ht
    rw [e1]
    refine ⟨hs.counter, hs.sessions, ?_⟩
    intro id x hx
    have hx : (s.workerSets.set (i ws) ws) id = some x := hx
    by_cases hi : id = i ws
    · subst hi
      rw [KV.set_self] at hx
      simp only [Option.some.injEq] at hx
      rw [← hx]
      exact ⟨decode_full hd ht, decode_order hd⟩
    · rw [KV.set_ne _ _ hi] at hx
      exact hs.sets _ _ hx
  all_goals rw [e1]; exact ⟨hs.counter, hs.sessions, hs.sets⟩

/-! ### Prover -/

structure ProverFits (L : Lowering) (s : Prover.State) : Prop where
  chainId : s.config.destinationChainId ≤ u256Max
  batches : ∀ id b, s.batches id = some b → BatchInRange L b
  sessions : ∀ id b, s.sessionBatch id = some b → IsBytes b
  reply : ∀ b, s.replyBatch = some b → IsBytes b
  current : ∀ ws, s.current = some ws → FullSetTyped ws ∧ OMap.Sorted ws.signers
  next : ∀ ws, s.next = some ws → FullSetTyped ws ∧ OMap.Sorted ws.signers

theorem fits_prover {s : Prover.State} {sv : Str} {kt : Multisig.KeyType} :
    StoreFits L (.prover s sv kt) ↔ ProverFits L s := by
  constructor
  · intro h
    exact ⟨h.2 _ _ _ rfl, fun id b hb => h.1 (.batch id) (.batch b) (by simp [stored, hb]),
      fun id b hb => h.1 (.sessionBatch id) (.bytes b) (by simp [stored, hb]),
      fun b hb => h.1 .replyBatch (.bytes b) (by simp [stored, hb]),
      fun ws hw => h.1 .currentSet (.workerSet ws) (by simp [stored, hw]),
      fun ws hw => h.1 .nextSet (.workerSet ws) (by simp [stored, hw])⟩
  · intro h
    refine ⟨?_, fun p sv' kt' e => by cases e; exact h.chainId⟩
    intro k v hv
    cases k <;> simp only [stored, Option.map_eq_some_iff, reduceCtorEq] at hv
    · obtain ⟨p, hp, rfl⟩ := hv; exact h.batches _ _ hp
    · obtain ⟨p, hp, rfl⟩ := hv; exact h.sessions _ _ hp
    · obtain ⟨p, hp, rfl⟩ := hv; exact h.reply _ hp
    · obtain ⟨p, hp, rfl⟩ := hv; exact h.current _ hp
    · obtain ⟨p, hp, rfl⟩ := hv; exact h.next _ hp

theorem askKey_fits {w : World} (hw : WorldTyped L w) {a worker : Addr} {kt : Multisig.KeyType}
    {k : Multisig.PublicKey} (h : Chain.askKey w a kt worker = .ok k) : KeyFits k := by
  unfold Chain.askKey at h
  split at h
  · rename_i s hs
    split at h
    · rename_i k' hk
      simp only [Except.ok.injEq] at h
      subst h
      exact key_fits (hw _ _ hs) hk
    · cases h
  · cases h

theorem makeWorkerSet_full {P : Params} {b : Block} {w : World} (hw : WorldTyped L w) (hb : b.height ≤ u64Max)
    {cfg : Prover.Config} {sv : Str} {kt : Multisig.KeyType} {ws : Multisig.WorkerSet}
    (h : Prover.makeWorkerSet cfg (Chain.proverEnv P w b cfg sv kt) = .ok ws) :
    FullSetTyped ws ∧ OMap.Sorted ws.signers := by
  have ht := makeWorkerSet_typed hw hb h
  obtain ⟨workers, keys, sn, _, _, hsn, hk, rfl⟩ := Prover.makeWorkerSet_ok h
  refine ⟨⟨?_, ht.threshold, ht.createdAt⟩, OMap.sorted_ofList _⟩
  intro x hx
  have hx := mem_ofList hx
  obtain ⟨_, _, h1, h2⟩ := (Prover.entries_mem hk x).mp hx
  refine ⟨?_, askKey_fits hw h2⟩
  rw [h1]; decide

theorem command_fits {X : Encoding.Ext} (hX : Octets X) {enc : Encoding.Encoder} {m : Message} {c : Encoding.Command}
    (h : Prover.makeCommand X enc m = .ok c) (hm : MessageTyped L m) : IsBytes c.id ∧ IsBytes c.params := by
  unfold Prover.makeCommand at h
  split at h
  · simp at h
  rename_i ps hps
  simp only [Except.ok.injEq] at h
  rw [← h]
  refine ⟨hX.keccak _, ?_⟩
  split at hps
  · exact Encoding.Abi.commandParams_isBytes hX.parseH160 hm.payloadHash.1 hps
  · exact Encoding.Bcs.commandParams_isBytes hm.payloadHash.1 hps

theorem transfer_fits {X : Encoding.Ext} (hX : Octets X) {enc : Encoding.Encoder} {ws : Multisig.WorkerSet}
    {c : Encoding.Command} (h : Prover.makeTransfer X enc ws = .ok c) (hw : FullSetTyped ws) :
    IsBytes c.id ∧ IsBytes c.params := by
  unfold Prover.makeTransfer at h
  split at h
  · simp at h
  rename_i ps hps
  simp only [Except.ok.injEq] at h
  rw [← h]
  refine ⟨X.wsHash_bytes ws, ?_⟩
  split at hps
  · exact Encoding.Abi.transfer_isBytes hX.keccak hps
  · exact Encoding.Bcs.transfer_isBytes (fun e he => keyFits_bytes (hw.signers e he).2) hps

theorem buildBatch_fits {X : Encoding.Ext} (hX : Octets X) {cfg : Prover.Config} {ws : Option Multisig.WorkerSet}
    {ms : List Message} {b : Prover.Batch} (h : Prover.buildBatch X cfg ws ms = .ok b)
    (hc : cfg.destinationChainId ≤ u256Max) (hw : ∀ x, ws = some x → FullSetTyped x) (hm : ∀ m ∈ ms, MessageTyped L m) :
    BatchInRange L b := by
  unfold Prover.buildBatch at h
  split at h
  · simp at h
  rename_i tr htr
  split at h
  · simp at h
  rename_i cs hcs
  simp only [Except.ok.injEq] at h
  rw [← h]
  refine ⟨hX.keccak _, ?_, hc, ?_⟩
  · intro i hi
    obtain ⟨m, hmm, rfl⟩ := List.mem_map.mp hi
    exact (hm m hmm).ccId
  · intro c hcm
    rcases List.mem_append.mp hcm with hcm1 | hcm1
    · clear hcm
      cases ws with
      | none =>
        simp only [Except.ok.injEq] at htr
        rw [← htr] at hcm1; exact (List.not_mem_nil hcm1).elim
      | some x =>
        dsimp only at htr
        split at htr
        · simp at htr
        rename_i y hy
        simp only [Except.ok.injEq] at htr
        rw [← htr] at hcm1
        simp only [List.mem_singleton] at hcm1
        rw [hcm1]
        exact transfer_fits hX hy (hw x rfl)
    · obtain ⟨m, hmm, hmc⟩ := mapE_mem_right hcs hcm1
      exact command_fits hX hmc (hm m hmm)

theorem askGateway_typed {w : World} (hw : WorldTyped L w) {P : Params} {b : Block} {cfg : Prover.Config} {sv : Str}
    {kt : Multisig.KeyType} {ids : List CCId} {ms : List Message}
    (h : (Chain.proverEnv P w b cfg sv kt).gateway ids = .ok ms) : ∀ m ∈ ms, MessageTyped L m := by
  have h : Chain.askGateway w cfg.gateway ids = .ok ms := h
  unfold Chain.askGateway at h
  split at h
  · rename_i s hs
    split at h
    · rename_i ms' hg
      simp only [Except.ok.injEq] at h
      rw [← h]; exact messages_typed (hw _ _ hs) hg
    · simp at h
  · simp at h

theorem batches_set {s : Prover.State} (hs : ProverFits L s) {b : Prover.Batch} (hb : BatchInRange L b) :
    ∀ id x, (s.batches.set b.id b) id = some x → BatchInRange L x := by
  intro id x hx
  by_cases hi : id = b.id
  · subst hi
    rw [KV.set_self] at hx
    simp only [Option.some.injEq] at hx
    rw [← hx]; exact hb
  · rw [KV.set_ne _ _ hi] at hx
    exact hs.batches _ _ hx

theorem handle_kept {P : Params} (hX : Octets P.X) {b : Block} {w : World} (hw : WorldTyped L w)
    (hb : b.height ≤ u64Max) {s s' : Prover.State} {sv : Str} {kt : Multisig.KeyType} {m : Prover.Msg} {out : Prover.Out}
    (hs : ProverFits L s) (h : Prover.handle P.X s (Chain.proverEnv P w b s.config sv kt) m = .ok (s', out)) :
    ProverFits L s' := by
  have hnext : ∀ new, Prover.nextWorkerSet s (Chain.proverEnv P w b s.config sv kt) = .ok (some new) →
      FullSetTyped new ∧ OMap.Sorted new.signers := by
    intro new hnw
    obtain ⟨n, c, hmk, _, e⟩ := Prover.nextWorkerSet_ok.mp hnw
    split at e
    · simp only [Option.some.injEq] at e
      rw [e]; exact makeWorkerSet_full hw hb hmk
    · simp at e
  cases m with
  | constructProof ids =>
    obtain ⟨msgs, s1, bt, cur, d, hget, hsrc, _, _, e, _⟩ := Prover.constructProof_ok h
    have hms : ∀ m ∈ msgs, MessageTyped L m := by
      unfold Prover.getMessages at hget
      split at hget
      · simp at hget
      rename_i ms hgw
      split at hget
      · simp at hget
      split at hget
      · simp at hget
      simp only [Except.ok.injEq] at hget
      rw [← hget]; exact askGateway_typed hw hgw
    rw [e]
    rcases hsrc with ⟨hbt, rfl⟩ | ⟨_, hnb⟩
    · refine ⟨hs.chainId, hs.batches, hs.sessions, ?_, hs.current, hs.next⟩
      intro x hx
      simp only [Option.some.injEq] at hx
      rw [← hx]; exact (hs.batches _ _ hbt).id
    · obtain ⟨ws, hnw, hbb, _, rfl⟩ := Prover.newBatch_ok.mp hnb
      have hbf : BatchInRange L bt := buildBatch_fits hX hbb hs.chainId
        (fun x hx => (hnext x (by rw [← hx]; exact hnw)).1) hms
      refine ⟨hs.chainId, batches_set hs hbf, hs.sessions, ?_, hs.current, ?_⟩
      · intro x hx
        simp only [Option.some.injEq] at hx
        rw [← hx]; exact hbf.id
      · intro x hx
        cases ws with
        | none => exact hs.next x hx
        | some y =>
          simp only [Prover.pendingAfter, Option.some.injEq] at hx
          rw [← hx]; exact hnext y hnw
  | updateWorkerSet =>
    rcases Prover.updateWorkerSet_ok h with ⟨_, new, hn, e, _⟩ | ⟨cur, new, bt, d, _, hnw, _, hbb, _, e, _⟩
    · rw [e]
      refine ⟨hs.chainId, hs.batches, hs.sessions, hs.reply, ?_, hs.next⟩
      intro x hx
      simp only [Option.some.injEq] at hx
      rw [← hx]; exact makeWorkerSet_full hw hb hn
    · rw [e]
      have hbf : BatchInRange L bt := buildBatch_fits hX hbb hs.chainId
        (fun x hx => by simp only [Option.some.injEq] at hx; rw [← hx]; exact (hnext new hnw).1)
        (fun m hm => (List.not_mem_nil hm).elim)
      refine ⟨hs.chainId, batches_set hs hbf, hs.sessions, ?_, hs.current, ?_⟩
      · intro x hx
        simp only [Option.some.injEq] at hx
        rw [← hx]; exact hbf.id
      · intro x hx
        simp only [Option.some.injEq] at hx
        rw [← hx]; exact hnext new hnw
  | confirmWorkerSet =>
    obtain ⟨ws, ops, hn, _, _, e, _⟩ := Prover.confirmWorkerSet_ok h
    rw [e]
    refine ⟨hs.chainId, hs.batches, hs.sessions, hs.reply, ?_, fun x hx => by simp at hx⟩
    intro x hx
    simp only [Option.some.injEq] at hx
    rw [← hx]; exact hs.next _ hn

theorem prover_kept {P : Params} (hX : Octets P.X) {b : Block} {w : World} (hw : WorldTyped L w)
    (hb : b.height ≤ u64Max) {s s' : Prover.State} {sv : Str} {kt : Multisig.KeyType} {m : Prover.Msg} {r : Prover.Resp}
    {reply : Option (Option Nat)} (hs : ProverFits L s)
    (h : Prover.exec P.X s ⟨m, Chain.proverEnv P w b s.config sv kt, reply⟩ = .ok (s', r)) : ProverFits L s' := by
  unfold Prover.exec at h
  split at h
  · simp at h
  rename_i s1 out ho
  have h1 := handle_kept hX hw hb hs ho
  split at h
  · simp at h
  split at h
  · simp only [Except.ok.injEq, Prod.mk.injEq] at h
    rw [← h.1]; exact h1
  · split at h
    · simp at h
    · rename_i hr
      simp only [Except.ok.injEq, Prod.mk.injEq] at h
      rw [← h.1]
      unfold Prover.reply at hr
      split at hr
      · simp at hr
      split at hr
      · simp at hr
      rename_i sid _ _ bid hbid
      simp only [Except.ok.injEq, Prod.mk.injEq] at hr
      rw [← hr.1]
      refine ⟨h1.chainId, h1.batches, ?_, h1.reply, h1.current, h1.next⟩
      intro id x hx
      have hx : (s1.sessionBatch.set sid bid) id = some x := hx
      by_cases hi : id = sid
      · subst hi
        rw [KV.set_self] at hx
        simp only [Option.some.injEq] at hx
        rw [← hx]; exact h1.reply _ hbid
      · rw [KV.set_ne _ _ hi] at hx
        exact h1.sessions _ _ hx

end Amp.Wire
