import Verif.Chain.ProofProps
import Verif.Chain.Carried

/-!
# C82: signatures complete proofs
-/

namespace Amp.Chain

open Amp.Router (ChainName CCId Message)
open Amp.Multisig (WorkerSet)
open Amp.Prover (Sys SysResp sysAfter sysLog sysExec sysInit IsBatch dataDigest Addressable Nameable ChainIdFits
  dataSize SetEncodable)
open Amp.Ampd.Signing (weightIn totalWeight)

variable {P : Params} {setup : Setup} {l l₁ l₂ : List Entry} {w w' : World} {R Q : Addr} {e : Entry}
  {rc : Router.Config} {nc : Nexus.Config} {pc : Prover.Config} {sv : Str} {kt : Multisig.KeyType}
  {mc : Multisig.Config}

/-! ### Specification -/

/-- the multisig contract at `M` announced a session -/
def AnnouncedAt (l : List Entry) (M : Addr) (sid : Nat) (wid : Str) (keys : List (Addr × Multisig.PublicKey))
    (digest : Encoding.Bytes) (chain : ChainName) : Prop :=
  ∃ e ∈ l, ∃ c r, e.p.target = M ∧ e.act = .multisig c r ∧
    Multisig.Event.signingStarted sid wid keys digest chain ∈ r.events

/-! ### Helper lemmas -/

theorem RecordsAt.prefix {t₁ t₂ : List Tx} {tx : Tx} {h n : Nat} (hr : RecordsAt P setup (t₁ ++ tx :: t₂) R h n) :
    RecordsAt P setup t₁ R tx.block.height n := by
  obtain ⟨⟨cfg, p, h0, a1, a2, a3, a4⟩, ho, hb, hd, hh, hc⟩ := hr
  have hl : ∃ l', log P setup (t₁ ++ tx :: t₂) = log P setup t₁ ++ l' := by
    unfold log
    rw [outs_append, List.flatMap_append]
    exact ⟨_, rfl⟩
  obtain ⟨l', hl⟩ := hl
  unfold InOrder at ho
  rw [List.map_append, List.pairwise_append] at ho
  refine ⟨⟨cfg, p, h0, a1, a2, a4 tx (by simp), fun t ht => a4 t (List.mem_append_left _ ht)⟩, ho.1,
    fun t ht => ho.2.2 _ (List.mem_map_of_mem ht) _ (by simp), ?_, Nat.le_trans (hb tx (by simp)) hh, ?_⟩
  · intro e he
    exact hd e (by rw [hl]; exact List.mem_append_left _ he)
  · rw [hl, List.length_append] at hc
    omega

/-- a signature that fails on the chain fails at the multisig contract, so that the storage of the contract is as if
it had been called -/
theorem submitted {t₁ t₂ : List Tx} {M : Addr} (hM : setup M = some (.multisig mc)) {h : Nat}
    (hR : RecordsAt P setup (t₁ ++ t₂) mc.rewards h 2) :
    ∃ cs, Multisig.stateAfter P.C (Prover.workerSetId P.X) mc (multisigCalls M (log P setup t₁) ++ cs) =
        Multisig.stateAfter P.C (Prover.workerSetId P.X) mc (multisigCalls M (log P setup (t₁ ++ t₂))) ∧
      Multisig.trace P.C (Prover.workerSetId P.X) mc (multisigCalls M (log P setup t₁) ++ cs) =
        Multisig.trace P.C (Prover.workerSetId P.X) mc (multisigCalls M (log P setup (t₁ ++ t₂))) ∧
      ∀ sid a sig, Got P setup t₁ t₂ a M (.multisig (.submitSignature sid sig)) →
        ∃ height, ⟨a, height, .submitSignature sid sig⟩ ∈ cs := by
  induction t₂ using List.reverseRecOn with
  | nil =>
    refine ⟨[], by simp, by simp, ?_⟩
    rintro sid a sig ⟨u, tx, v, h, _⟩
    simp at h
  | append_singleton t₂ tx ih =>
    have hR' := hR
    rw [← List.append_assoc] at hR'
    have hRt := RecordsAt.prefix hR'
    obtain ⟨cs, h1, h2, h3⟩ := ih ⟨by
      obtain ⟨⟨cfg, p, h0, a1, a2, a3, a4⟩, _⟩ := hR
      exact ⟨cfg, p, h0, a1, a2, a3, fun t ht => hRt.contract.elim fun c hc => by
        obtain ⟨p', h0', b1, b2, b3, b4⟩ := hc
        rw [a1] at b1
        simp only [Option.some.injEq, Kind.rewards.injEq] at b1
        rw [b1.2.2]; exact b4 t ht⟩, hRt.order,
      fun t ht => hR.before t (by rcases List.mem_append.mp ht with h | h <;> simp [h]), hRt.durations, hR.height,
      hRt.count⟩
    rw [← List.append_assoc t₁ t₂ [tx]]
    cases hx : exec P (worldAfter P setup (t₁ ++ t₂)) tx with
    | ok y =>
      obtain ⟨w', es⟩ := y
      obtain ⟨g1, g2⟩ := log_snoc hx
      have hcalls : multisigCalls M (log P setup (t₁ ++ t₂ ++ [tx])) =
          multisigCalls M (log P setup (t₁ ++ t₂)) ++ multisigCalls M es := by
        rw [g2]; unfold multisigCalls; rw [actsAt_append, List.filterMap_append]
      refine ⟨cs ++ multisigCalls M es, ?_, ?_, ?_⟩
      · rw [hcalls, ← List.append_assoc, Multisig.stateAfter_append, h1, ← Multisig.stateAfter_append]
      · rw [hcalls, ← List.append_assoc, Multisig.trace_append, h2, h1, ← Multisig.trace_append]
      · intro sid a sig hs
        rcases got_snoc hs with hs | hs
        · obtain ⟨height, hh⟩ := h3 sid a sig hs
          exact ⟨height, List.mem_append_left _ hh⟩
        · obtain ⟨e, he, e1, e2, e3⟩ := gets_entry hs (by rw [hM]; simp) hx
          obtain ⟨es1, es2, rfl⟩ := List.append_of_mem he
          have hi := inv P setup (t₁ ++ t₂ ++ [tx])
          obtain ⟨_, b, reply, s', hcall⟩ := hi.genuine (log P setup (t₁ ++ t₂) ++ es1) e es2 (by rw [g2]; simp)
          have hw : worldOf P setup (log P setup (t₁ ++ t₂) ++ es1) e.p.target =
              some (replay P (.multisig mc) (actsAt e.p.target (log P setup (t₁ ++ t₂) ++ es1))) := by
            rw [e1]; simp [worldOf, hM]
          obtain ⟨m, s1, r, k1, k2, _⟩ := call_multisig_ok (s := _) hw hcall
          rw [e3] at k1
          simp only [Msg.multisig.injEq] at k1
          subst k1
          refine ⟨b.height, List.mem_append_right _ ?_⟩
          unfold multisigCalls
          rw [actsAt_append, show e :: es2 = [e] ++ es2 by rfl, actsAt_append, actsAt_self _ e e1, List.filterMap_append]
          refine List.mem_append_right _ ?_
          rw [k2, e2]
          simp [Act.multisigCall?]
    | error x =>
      obtain ⟨g1, g2⟩ := log_snoc_error (P := P) (setup := setup) (txs := t₁ ++ t₂) (tx := tx) (by
        intro y hy; rw [hx] at hy; simp at hy)
      rw [g1]
      by_cases hsub : ∃ sid a sig, Gets P setup (t₁ ++ t₂) tx a M (.multisig (.submitSignature sid sig))
      · obtain ⟨sid, a, sig, hs⟩ := hsub
        obtain ⟨funds, hmsg⟩ := hs.message
        obtain ⟨hm, hgas⟩ : tx.msgs = [(M, funds, .multisig (.submitSignature sid sig))] ∧ 2 ≤ tx.gas := by
          rcases hmsg with h | ⟨_, y, hy⟩
          · exact h
          · rw [hx] at hy; simp at hy
        have hiff := (C83_signature P setup (t₁ ++ t₂) M mc hM tx hRt funds sid sig hm
          (by rw [hs.sender]; exact hs.outside) hgas).1
        have hne : ¬ ∃ y, Multisig.exec P.C (Prover.workerSetId P.X)
            (Multisig.stateAfter P.C (Prover.workerSetId P.X) mc (multisigCalls M (log P setup (t₁ ++ t₂))))
            ⟨tx.sender, tx.block.height, .submitSignature sid sig⟩ = .ok y := by
          rw [← hiff, hx]; simp
        rw [hs.sender] at hne
        cases hy : Multisig.exec P.C (Prover.workerSetId P.X)
            (Multisig.stateAfter P.C (Prover.workerSetId P.X) mc (multisigCalls M (log P setup (t₁ ++ t₂))))
            ⟨a, tx.block.height, .submitSignature sid sig⟩ with
        | ok y => exact absurd ⟨y, hy⟩ hne
        | error z =>
          refine ⟨cs ++ [⟨a, tx.block.height, .submitSignature sid sig⟩], ?_, ?_, ?_⟩
          · rw [← List.append_assoc, Multisig.stateAfter_append, h1, runCalls_cons, runCalls_nil, hy]
            rfl
          · rw [← List.append_assoc, Multisig.trace_append, h1, h2]
            simp [steps, hy]
          · intro sid' a' sig' hs'
            rcases got_snoc hs' with hs' | hs'
            · obtain ⟨height, hh⟩ := h3 sid' a' sig' hs'
              exact ⟨height, List.mem_append_left _ hh⟩
            · obtain ⟨f', hm'⟩ := hs'.message
              rcases hm' with ⟨hm', _⟩ | ⟨_, y, hy⟩
              · rw [hm] at hm'
                simp only [List.cons.injEq, Prod.mk.injEq, Msg.multisig.injEq, Multisig.Msg.submitSignature.injEq,
                  and_true, true_and] at hm'
                refine ⟨tx.block.height, List.mem_append_right _ ?_⟩
                rw [← hs'.sender, hs.sender, ← hm'.2.1, ← hm'.2.2]
                exact List.mem_singleton_self _
              · rw [hx] at hy; simp at hy
      · refine ⟨cs, h1, h2, ?_⟩
        intro sid a sig hs
        rcases got_snoc hs with hs | hs
        · exact h3 sid a sig hs
        · exact absurd ⟨sid, a, sig, hs⟩ hsub

theorem pair_extends (P : Params) (setup : Setup) (t₁ t₂ : List Tx) (hQ : setup Q = some (.prover pc sv kt))
    (hM : setup pc.multisig = some (.multisig mc)) :
    ∃ ops₁ ops₂, Pair P setup Q pc sv kt mc (log P setup t₁) (worldAfter P setup t₁) ops₁ ∧
      Pair P setup Q pc sv kt mc (log P setup (t₁ ++ t₂)) (worldAfter P setup (t₁ ++ t₂)) (ops₁ ++ ops₂) := by
  obtain ⟨ops₁, h1⟩ := pair P setup t₁ hQ hM
  refine ⟨ops₁, ?_⟩
  induction t₂ using List.reverseRecOn with
  | nil => exact ⟨[], h1, by simpa using h1⟩
  | append_singleton t₂ tx ih =>
    obtain ⟨ops₂, _, h2⟩ := ih
    rw [← List.append_assoc]
    cases hx : exec P (worldAfter P setup (t₁ ++ t₂)) tx with
    | ok y =>
      obtain ⟨w', es⟩ := y
      obtain ⟨g1, g2⟩ := log_snoc hx
      obtain ⟨_, o, ho⟩ := exec_pair (inv P setup (t₁ ++ t₂)) h2 hx
      rw [g1, g2]
      exact ⟨ops₂ ++ o, h1, by rw [← List.append_assoc]; exact ho⟩
    | error x =>
      obtain ⟨g1, g2⟩ := log_snoc_error (P := P) (setup := setup) (txs := t₁ ++ t₂) (tx := tx) (by
        intro y hy; rw [hx] at hy; simp at hy)
      rw [g1, g2]
      exact ⟨ops₂, h1, h2⟩

/-- the batch of a session is stored -/
theorem linked_stored (X : Encoding.Ext) (C : Multisig.Crypto) (Q : Addr) (pc : Prover.Config) (mc : Multisig.Config)
    (ops : List Prover.Op) (sid : Nat) (bid : Encoding.Bytes)
    (h : (sysAfter X C Q pc mc ops).prover.sessionBatch sid = some bid) :
    ((sysAfter X C Q pc mc ops).prover.batches bid).isSome := by
  revert h
  revert bid sid
  unfold sysAfter
  refine (runCalls_inv (sysExec X C Q) (P := fun S =>
    ((∃ mcs, S.multisig = Multisig.stateAfter C (Prover.workerSetId X) mc mcs) ∧
      ∃ pcs, S.prover = Prover.stateAfter X pc pcs) ∧
    ∀ sid bid, S.prover.sessionBatch sid = some bid → (S.prover.batches bid).isSome) ?_ (sysInit pc mc)
    ⟨⟨⟨[], rfl⟩, ⟨[], rfl⟩⟩, by intro sid bid h; simp [sysInit, Prover.init] at h⟩ ops).2
  rintro S op S' r ⟨hr, ih⟩ hx
  refine ⟨Prover.sys_reach hx hr.1 hr.2, ?_⟩
  intro sid bid hs
  rcases Prover.sys_ok hx with ⟨c, mr, _, _, h3, _⟩ | ⟨msg, env, pr, mr, rfl, _, h3, _⟩
  · rw [h3] at hs ⊢
    exact ih sid bid hs
  · cases Prover.exec_effect h3 with
    | first nw hm hc hn hs' hr => rw [hs'] at hs ⊢; exact ih sid bid hs
    | confirmed ws' o hm hp ho hv hs' hr => rw [hs'] at hs ⊢; exact ih sid bid hs
    | reused ids b cur digest sid' hm hb hg hc hd ha hs' hr' =>
      rw [hs'] at hs ⊢
      simp only [KV.set_apply] at hs ⊢
      split at hs
      · obtain ⟨_, pcs, hpcs⟩ := hr
        simp only [Option.some.injEq] at hs
        rw [hpcs] at hb
        have hid := (Prover.stored_digest X pc pcs _ b hb).2.1
        rw [← hs, hid, hpcs, hb]
        rfl
      · exact ih sid bid hs
    | built ids msgs ws' b cur digest sid' hm hw hb hp hcur hd ha hs' hr' =>
      rw [hs'] at hs ⊢
      simp only [KV.set_apply] at hs ⊢
      split at hs
      · simp only [Option.some.injEq] at hs
        simp [hs]
      · split
        · rfl
        · exact ih sid bid hs

theorem announcedAt_trace {M : Addr} (hi : Inv P setup l w) (hM : setup M = some (.multisig mc)) {sid : Nat} {wid : Str}
    {keys : List (Addr × Multisig.PublicKey)} {digest : Encoding.Bytes} {chain : ChainName}
    (h : AnnouncedAt l M sid wid keys digest chain) :
    Ampd.Signing.Announced (Multisig.trace P.C (Prover.workerSetId P.X) mc (multisigCalls M l)) sid wid keys digest
      chain := by
  obtain ⟨e, he, c, r, ht, ha, hev⟩ := h
  have hmat := hi.acts M _ hM
  have hmem : e.act ∈ actsAt M l := by
    unfold actsAt
    exact List.mem_map_of_mem (List.mem_filter.mpr ⟨he, by simpa using ht⟩)
  unfold Matches at hmat
  simp only at hmat
  rw [hmat] at hmem
  obtain ⟨y, hy, hya⟩ := List.mem_map.mp hmem
  rw [ha] at hya
  simp only [Act.multisig.injEq] at hya
  rw [outs_eq_steps] at hy
  obtain ⟨st, hst, hyy⟩ := List.mem_map.mp hy
  refine ⟨st, hst, ?_⟩
  rw [← hyy] at hya
  simp only at hya
  rw [hya.2]
  exact hev

/-! ### C82 -/

/-- C82, completion: once members whose weight reaches the threshold have submitted valid signatures for an announced
session of the prover, `GetProof` returns the batch with a payload for the destination chain, whatever else happened. -/
theorem C82_completed (P : Params) (setup : Setup) (txs₁ txs₂ : List Tx) (Q : Addr) (pc : Prover.Config) (sv : Str)
    (kt : Multisig.KeyType) (hQ : setup Q = some (.prover pc sv kt)) (n d : Nat)
    (hth : Std.MajorityThreshold.ofPair n d = .ok pc.signingThreshold) (mc : Multisig.Config)
    (hM : setup pc.multisig = some (.multisig mc))
    (hd : SetsDistinctAt P (log P setup (txs₁ ++ txs₂)) pc.multisig) (height : Nat)
    (hR : RecordsAt P setup (txs₁ ++ txs₂) mc.rewards height 2) (sid : Nat) (ws : WorkerSet)
    (keys : List (Addr × Multisig.PublicKey)) (digest : Encoding.Bytes) (chain : ChainName)
    (hann : AnnouncedAt (log P setup txs₁) pc.multisig sid (Prover.workerSetId P.X ws) keys digest chain)
    (hreg : registeredSet (worldAfter P setup txs₁) pc.multisig (Prover.workerSetId P.X ws) = some ws)
    (hown : shownBatch (worldAfter P setup txs₁) Q sid ≠ none)
    (hkeys : ∀ e ∈ ws.signers, Nameable P.X pc.encoder e.2.pubKey)
    (hc : ChainIdFits pc.encoder pc.destinationChainId)
    (hsize : ∀ b, shownBatch (worldAfter P setup (txs₁ ++ txs₂)) Q sid = some b →
      1000 * (1 + b.data.commands.length + ws.signers.length) + dataSize b.data < 2 ^ 31)
    (S : List Addr) (hS : S ≠ []) (hq : ws.threshold ≤ weightIn ws S)
    (hsub : ∀ a ∈ S, ∃ pk sig, (a, pk) ∈ keys ∧ Multisig.Valid P.C digest pk sig ∧
      Got P setup txs₁ txs₂ a pc.multisig (.multisig (.submitSignature sid sig.bytes))) :
    ∃ b payload, shownBatch (worldAfter P setup (txs₁ ++ txs₂)) Q sid = some b ∧
      askProof P (worldAfter P setup (txs₁ ++ txs₂)) Q sid = .ok ⟨b.messageIds, b.data, .completed payload⟩ := by
  have hi1 := inv P setup txs₁
  have hi2 := inv P setup (txs₁ ++ txs₂)
  obtain ⟨ops₁, ops₂, hp1, hp2⟩ := pair_extends P setup txs₁ txs₂ hQ hM
  obtain ⟨hms1, _, _⟩ := Prover.sys_multisig (X := P.X) (C := P.C) (self := Q) (cfg := pc) (mcfg := mc) ops₁
  obtain ⟨hms2, _, hregs⟩ := Prover.sys_multisig (X := P.X) (C := P.C) (self := Q) (cfg := pc) (mcfg := mc) (ops₁ ++ ops₂)
  have hdist := setsDistinct hi2 hp2 hM hd
  have hnc := hdist
  unfold Prover.SetsDistinct at hnc
  rw [hp2.received] at hnc
  rw [hp1.received] at hms1
  rw [hp2.received] at hms2
  -- the batch stays linked to the session
  have hb1 : ∃ bid, (sysAfter P.X P.C Q pc mc ops₁).prover.sessionBatch sid = some bid := by
    unfold shownBatch at hown
    rw [hp1.prover] at hown
    simp only at hown
    cases h : (sysAfter P.X P.C Q pc mc ops₁).prover.sessionBatch sid with
    | none => rw [h] at hown; simp at hown
    | some bid => exact ⟨bid, rfl⟩
  obtain ⟨bid, hb1⟩ := hb1
  have hb2 := Prover.C58_link_permanent P.X P.C Q pc mc ops₁ ops₂ sid bid hb1
  obtain ⟨st, hst, b0, cur, digest', se, hop, hse, hmsg, hwid⟩ :=
    Prover.C58_session P.X P.C Q pc mc (ops₁ ++ ops₂) sid bid hb2
  have hsess := announcedAt_trace hi1 hM hann
  obtain ⟨cs, hc1, hc2, hc3⟩ := submitted hM hR
  have hws1 : Multisig.getWorkerSet (Multisig.stateAfter P.C (Prover.workerSetId P.X) mc
      (multisigCalls pc.multisig (log P setup txs₁))) (Prover.workerSetId P.X ws) = some ws := by
    unfold registeredSet at hreg
    rw [hp1.multisig, hms1] at hreg
    exact hreg
  -- the worker set of the session is the prover's
  have hann2 : Ampd.Signing.Announced (Multisig.trace P.C (Prover.workerSetId P.X) mc
      (multisigCalls pc.multisig (log P setup (txs₁ ++ txs₂)))) sid (Prover.workerSetId P.X ws) keys digest chain := by
    rw [← hc2]
    obtain ⟨x, hx, hev⟩ := hsess
    exact ⟨x, by rw [Multisig.trace_append]; exact List.mem_append_left _ hx, hev⟩
  obtain ⟨se', ws', k1, k2, _, k4, _, _⟩ := Ampd.Signing.announced_state P.C (Prover.workerSetId P.X) mc _ hnc sid _ keys
    digest chain hann2
  rw [hms2, k1] at hse
  simp only [Option.some.injEq] at hse
  subst hse
  have hnc' : Multisig.NoCollision (Prover.workerSetId P.X) (Multisig.trace P.C (Prover.workerSetId P.X) mc
      (multisigCalls pc.multisig (log P setup txs₁) ++ cs)) := by rw [hc2]; exact hnc
  have hwsEnd := Multisig.C49_forever P.C (Prover.workerSetId P.X) mc _ cs hnc' _ ws hws1
  rw [hc1] at hwsEnd
  have hcurEnd := (Multisig.C49_stable P.C (Prover.workerSetId P.X) mc _ hdist _ cur).mpr
    ⟨rfl, hregs st hst cur hop.current⟩
  rw [hp2.received, ← hwid, k2] at hcurEnd
  have hcw : cur = ws := by
    have : some cur = some ws := hcurEnd.symm.trans hwsEnd
    simpa using this
  subst hcw
  have hbuilt : cur ∈ Prover.builtSets pc (sysLog P.X P.C Q pc mc (ops₁ ++ ops₂)) := by
    obtain ⟨⟨o1, o2, ho, hpre⟩, _⟩ := steps_mem _ hst
    have := (current_built P.X P.C Q pc mc o1).1 cur (by unfold sysAfter; rw [← hpre]; exact hop.current)
    rw [ho]
    unfold sysLog at this ⊢
    rw [steps_append]
    unfold Prover.builtSets at this ⊢
    rw [List.filterMap_append]
    exact List.mem_append_left _ this
  have hfit := fits_built hi2 hp2 hth hbuilt
  have hshown : ∃ b, (sysAfter P.X P.C Q pc mc (ops₁ ++ ops₂)).prover.batches bid = some b := by
    exact Option.isSome_iff_exists.mp (linked_stored P.X P.C Q pc mc (ops₁ ++ ops₂) sid bid hb2)
  obtain ⟨b, hb⟩ := hshown
  have hsb : shownBatch (worldAfter P setup (txs₁ ++ txs₂)) Q sid = some b := by
    unfold shownBatch
    rw [hp2.prover]
    simp only [hb2, Option.bind_some, hb]
  have hsz := hsize b hsb
  have hsum : (cur.signers.map (fun e => e.2.weight)).sum = cur.signers.length := sum_ones hfit.ones
  have hmax : cur.signers.length ≤ Prover.maxWeight pc.encoder := by
    unfold Prover.maxWeight
    cases pc.encoder <;> simp only [u256Max, u128Max] <;> omega
  have hmax1 : 1 ≤ Prover.maxWeight pc.encoder := by
    unfold Prover.maxWeight
    cases pc.encoder <;> simp [u256Max, u128Max]
  have htot : (cur.signers.map (fun e => e.2.weight)).sum ≤ u256Max := by rw [hsum]; unfold u256Max; omega
  obtain ⟨m, hgt, hm1, hm2⟩ := Ampd.Signing.C77_completes P.C (Prover.workerSetId P.X) mc _ cs hnc' sid _ keys digest chain
    hsess cur hws1 htot S hS hq (by
      intro a ha
      obtain ⟨pk, sig, h1, h2, h4⟩ := hsub a ha
      obtain ⟨hh, h5⟩ := hc3 sid a sig.bytes h4
      exact ⟨pk, sig, hh, h1, h2, h5⟩)
  rw [hc1] at hm1
  have hst' : se'.state = .completed hgt := by
    unfold Multisig.getMultisig at hm1
    rw [k1] at hm1
    simp only at hm1
    split at hm1
    · simp at hm1
    · simp only [Option.some.injEq] at hm1
      rw [← hm1] at hm2
      exact hm2
  obtain ⟨x, _, o, msgs, hmade⟩ := (made_of_post P.X P.C Q pc mc (ops₁ ++ ops₂)).1 bid b hb
  obtain ⟨payload, hpay⟩ := Prover.completed_total (X := P.X) (C := P.C) (self := Q) hdist hb2 hb
    (Prover.isBatch_build hmade.build).1 hc (by rw [hms2]; exact k1) hst' (by rw [hms2, k2]; exact hwsEnd)
    ⟨hkeys, fun e he => by rw [hfit.ones e he]; exact hmax1, Nat.le_trans hfit.threshold hmax⟩ hfit.keys htot hsz
  exact ⟨b, payload, hsb, by rw [askProof_eq hp2]; exact hpay⟩

end Amp.Chain
