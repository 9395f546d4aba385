import Verif.Chain.ProofCompleted
import Verif.Chain.TrustSpec
import Verif.Ampd.ProgressProps

/-!
# C89: the daemons carry messages through
-/

namespace Amp.Chain

open Amp.Router (ChainName CCId Message)
open Amp.Std (Vote)
open Amp.Multisig (WorkerSet)
open Amp.Prover (Nameable ChainIdFits dataSize)
open Amp.Ampd.Signing (weightIn)

variable {P : Params} {setup : Setup}

/-! ### Specification -/

/-- what a daemon sends, as a message on the chain -/
def daemonMsg : Ampd.TxMsg → Msg
  | .vote id vs => .verifier (.vote id vs)
  | .submitSignature id b => .multisig (.submitSignature id b)

/-- Somebody asked the verifier at `V` to verify `m`, which was not verified and not in a poll (and no other message of
the request has its hash); a poll was opened for the workers `ws` and announced with the contents `confs` and the data
`pm`; `cf` is what is announced for `m`. -/
def PollOpened (P : Params) (l : List Entry) (V : Addr) (vc : VV.Config) (m : Message) (ws : List Registry.Worker)
    (confs : List VV.TxConfirmation) (pm : VV.PollMeta) (cf : VV.TxConfirmation) : Prop :=
  ∃ l₁ e l₂ c r ms, l = l₁ ++ e :: l₂ ∧ e.p.target = V ∧ e.act = .verifier c r ∧
    c.msg = .verifyMessages ms ∧ m ∈ ms ∧ (∀ m' ∈ ms, m'.hash P.H.msg = m.hash P.H.msg → m' = m) ∧
    (VV.msgStatus P.H (VV.stateAfter P.H vc (verifierCalls V l₁)) m = .ok .notVerified ∨
      VV.msgStatus P.H (VV.stateAfter P.H vc (verifierCalls V l₁)) m = .ok .failedToVerify) ∧
    c.workers = some ws ∧ r.event = some (.messagesPollStarted confs pm) ∧ VV.confirmationOf m = .ok cf

/-- the daemons can read the announcement, and (EVM) it is about their chain -/
def Source.Reads (s : Source) (V : Addr) (confs : List VV.TxConfirmation) (pm : VV.PollMeta)
    (cf : VV.TxConfirmation) : Prop :=
  match s with
  | .evm _ L R _ chain _ _ => ∃ p dm, Ampd.Evm.readMessagesPoll L R (V, .messagesPollStarted confs pm) = some p ∧
      Ampd.Evm.readMessage L R cf = some dm ∧ p.sourceChain.map Char.toLower = chain.show.map Char.toLower
  | .sui _ L R _ _ _ => ∃ p dm, Ampd.Sui.readMessagesPoll L R (V, .messagesPollStarted confs pm) = some p ∧
      Ampd.Sui.readMessage L R cf = some dm

/-- Worker `a`'s daemon handled the announcement, in an environment in which the latest block had the height `latest` and
the node answered and showed the contract call that `cf` is about in a final block; it sent `sent`. -/
def Source.Handled (s : Source) (V : Addr) (confs : List VV.TxConfirmation) (pm : VV.PollMeta)
    (cf : VV.TxConfirmation) (a : Addr) (latest : Nat) (sent : List Ampd.ExecTx) : Prop :=
  match s with
  | .evm _ L R decodeLog chain saw _ => ∃ E p dm, saw a E ∧ latest = E.latestBlock ∧
      Ampd.Evm.readMessagesPoll L R (V, .messagesPollStarted confs pm) = some p ∧
      Ampd.Evm.readMessage L R cf = some dm ∧
      Ampd.Evm.Shows L decodeLog chain pm.confirmationHeight p.sourceGateway dm E ∧
      Ampd.Evm.Answers chain E.node pm.confirmationHeight ∧
      sent = (Ampd.Evm.handleMessages L decodeLog (Ampd.Evm.readMessagesPoll L R) ⟨a, V, chain⟩ E
        (.abci (Ampd.announced V (.messagesPollStarted confs pm)))).sent
  | .sui _ L R json saw _ => ∃ E p dm, saw a E ∧ latest = E.latestBlock ∧
      Ampd.Sui.readMessagesPoll L R (V, .messagesPollStarted confs pm) = some p ∧
      Ampd.Sui.readMessage L R cf = some dm ∧ Ampd.Sui.Shows L json p dm E ∧
      sent = (Ampd.Sui.handleMessages L json (Ampd.Sui.readMessagesPoll L R) ⟨a, V⟩ E
        (.abci (Ampd.announced V (.messagesPollStarted confs pm)))).sent

/-- the verifier at `V` accepted a ballot of `a` -/
def VotedAt (l : List Entry) (V a : Addr) (id : Nat) (vs : List Vote) : Prop :=
  ∃ e ∈ l, e.p.target = V ∧ e.p.sender = a ∧ e.p.msg = .verifier (.vote id vs)

/-! ### Votes -/

/-- a ballot in a transaction of its own is refused only if the verifier refuses it -/
theorem vote_refused {txs : List Tx} {tx : Tx} {V : Addr} {vc : VV.Config} (hV : setup V = some (.verifier vc))
    {funds : List Registry.Coin} {id : Nat} {vs : List Vote} (hm : tx.msgs = [(V, funds, .verifier (.vote id vs))])
    (hs : setup tx.sender = none) (hg : 2 ≤ tx.gas)
    (hx : ∀ y, exec P (worldAfter P setup txs) tx ≠ .ok y) :
    ∃ e, VV.exec P.H (VV.stateAfter P.H vc (verifierCalls V (log P setup txs)))
      ⟨tx.block.height, tx.sender, none, .vote id vs⟩ = .error e := by
  have hi := inv P setup txs
  have wV := hi.verifier_state hV
  have hsend : worldAfter P setup txs tx.sender = none := by rw [hi.world]; simp [worldOf, hs]
  cases hv : VV.exec P.H (VV.stateAfter P.H vc (verifierCalls V (log P setup txs)))
      ⟨tx.block.height, tx.sender, none, .vote id vs⟩ with
  | error e => exact ⟨e, rfl⟩
  | ok y =>
    obtain ⟨s', r⟩ := y
    exfalso
    have hv' : ∀ ws, VV.exec P.H (VV.stateAfter P.H vc (verifierCalls V (log P setup txs)))
        ⟨tx.block.height, tx.sender, ws, .vote id vs⟩ = .ok (s', r) := by
      intro ws
      simpa only [VV.exec, VV.vote] using hv
    have hr : r.msgs = [] := by
      obtain ⟨_, _, _, _, _, rfl⟩ := VV.vote_ok (by simpa only [VV.exec] using hv)
      rfl
    obtain ⟨k, hk⟩ : ∃ k, tx.gas = k + 1 := ⟨tx.gas - 1, by omega⟩
    have : ∃ y, exec P (worldAfter P setup txs) tx = .ok y := by
      unfold exec
      rw [if_neg (by simp [hsend]), hm, hk]
      simp only [List.map_cons, List.map_nil]
      rw [run, if_neg (by simp [wV])]
      unfold deliver
      simp only [wV]
      unfold call
      simp only [wV, hv', Entry.sent, Act.outs, hr, List.map_nil, List.append_nil]
      cases k <;> exact ⟨_, rfl⟩
    obtain ⟨y, hy⟩ := this
    exact hx y hy

/-- The storage of the verifier is as if it had been called with all ballots that satisfy `sel` and that the chain
got. -/
theorem voted {t₁ t₂ : List Tx} {V : Addr} {vc : VV.Config} (hV : setup V = some (.verifier vc))
    (ho : InOrder (t₁ ++ t₂)) (sel : Addr → Nat → List Vote → Prop) :
    ∃ cs, VV.stateAfter P.H vc (verifierCalls V (log P setup t₁) ++ cs) =
        VV.stateAfter P.H vc (verifierCalls V (log P setup (t₁ ++ t₂))) ∧
      VV.InBlockOrder cs ∧ (∀ c ∈ cs, ∃ tx ∈ t₂, c.height = tx.block.height) ∧
      (∀ c ∈ cs, ∀ id vs, c.msg = .vote id vs →
        VotedAt (log P setup (t₁ ++ t₂)) V c.sender id vs ∨ sel c.sender id vs) ∧
      ∀ a id vs n, sel a id vs → GotBefore P setup t₁ t₂ a V (.verifier (.vote id vs)) n →
        ∃ c ∈ cs, c.sender = a ∧ c.msg = .vote id vs ∧ c.height < n := by
  induction t₂ using List.reverseRecOn with
  | nil =>
    refine ⟨[], by simp, List.Pairwise.nil, by simp, by simp, ?_⟩
    rintro a id vs n _ ⟨u, tx, v, h, _⟩
    simp at h
  | append_singleton t₂ tx ih =>
    rw [← List.append_assoc] at ho ⊢
    have ho' := ho
    unfold InOrder at ho'
    rw [List.map_append, List.pairwise_append] at ho'
    obtain ⟨cs, h1, h2, h3, h4, h5⟩ := ih ho'.1
    have hle : ∀ t ∈ t₂, t.block.height ≤ tx.block.height := by
      intro t ht
      exact ho'.2.2 _ (List.mem_map_of_mem (f := fun t : Tx => t.block.height) (List.mem_append_right _ ht)) _ (by simp)
    have horder : ∀ ds : List VV.Call, (∀ c ∈ ds, c.height = tx.block.height) → VV.InBlockOrder (cs ++ ds) := by
      intro ds hds
      unfold VV.InBlockOrder at *
      rw [List.map_append, List.pairwise_append]
      refine ⟨h2, ?_, ?_⟩
      · rw [List.pairwise_map]
        exact List.pairwise_of_forall_mem_list (fun x hx y hy => by rw [hds x hx, hds y hy])
      · intro x hx y hy
        obtain ⟨cx, hcx, rfl⟩ := List.mem_map.mp hx
        obtain ⟨cy, hcy, rfl⟩ := List.mem_map.mp hy
        obtain ⟨z, hz, he⟩ := h3 cx hcx
        rw [hds cy hcy, he]
        exact hle z hz
    have hheights : ∀ ds : List VV.Call, (∀ c ∈ ds, c.height = tx.block.height) →
        ∀ c ∈ cs ++ ds, ∃ t ∈ t₂ ++ [tx], c.height = t.block.height := by
      intro ds hds c hc
      rcases List.mem_append.mp hc with hc | hc
      · obtain ⟨t, ht, he⟩ := h3 c hc
        exact ⟨t, List.mem_append_left _ ht, he⟩
      · exact ⟨tx, by simp, hds c hc⟩
    cases hx : exec P (worldAfter P setup (t₁ ++ t₂)) tx with
    | ok y =>
      obtain ⟨w', es⟩ := y
      obtain ⟨g1, g2⟩ := log_snoc hx
      have hcalls : verifierCalls V (log P setup (t₁ ++ t₂ ++ [tx])) =
          verifierCalls V (log P setup (t₁ ++ t₂)) ++ verifierCalls V es := by
        rw [g2]; unfold verifierCalls; rw [actsAt_append, List.filterMap_append]
      have hes : ∀ c ∈ verifierCalls V es, c.height = tx.block.height := by
        intro c hc
        obtain ⟨e, he, r, hact⟩ := verifierCalls_mem hc
        unfold exec at hx
        split at hx
        · simp at hx
        · exact run_height _ hx e he c r hact
      -- the calls of the entries
      have hent : ∀ e ∈ es, e.p.target = V → ∃ c r, e.act = .verifier c r ∧ c.sender = e.p.sender ∧
          e.p.msg = .verifier c.msg ∧ c ∈ verifierCalls V es := by
        intro e he ht
        obtain ⟨es1, es2, rfl⟩ := List.append_of_mem he
        have hi := inv P setup (t₁ ++ t₂ ++ [tx])
        obtain ⟨_, b, reply, s', hcall⟩ := hi.genuine (log P setup (t₁ ++ t₂) ++ es1) e es2 (by rw [g2]; simp)
        have hw : worldOf P setup (log P setup (t₁ ++ t₂) ++ es1) e.p.target =
            some (replay P (.verifier vc) (actsAt e.p.target (log P setup (t₁ ++ t₂) ++ es1))) := by
          rw [ht]; simp [worldOf, hV]
        unfold call at hcall
        rw [hw] at hcall
        simp only [replay] at hcall
        cases hmsg : e.p.msg with
        | verifier m =>
          rw [hmsg] at hcall
          simp only at hcall
          split at hcall
          · simp at hcall
          · simp only [Except.ok.injEq, Prod.mk.injEq] at hcall
            refine ⟨_, _, hcall.2.symm, rfl, rfl, ?_⟩
            unfold verifierCalls
            rw [actsAt_append, show e :: es2 = [e] ++ es2 by rfl, actsAt_append, actsAt_self _ e ht,
              List.filterMap_append]
            refine List.mem_append_right _ ?_
            rw [← hcall.2]
            simp [Act.verifierCall?]
        | _ => rw [hmsg] at hcall; simp at hcall
      refine ⟨cs ++ verifierCalls V es, ?_, horder _ hes, hheights _ hes, ?_, ?_⟩
      · rw [hcalls, ← List.append_assoc]
        unfold VV.stateAfter at h1 ⊢
        rw [runCalls_append, h1, ← runCalls_append]
      · intro c hc id vs hm
        rcases List.mem_append.mp hc with hc | hc
        · rcases h4 c hc id vs hm with ⟨e, he, h⟩ | h
          · left
            refine ⟨e, ?_, h⟩
            rw [g2]; exact List.mem_append_left _ he
          · exact Or.inr h
        · left
          obtain ⟨x, hx', hcx⟩ := List.mem_filterMap.mp hc
          obtain ⟨e, he, ht, hact⟩ := mem_actsAt hx'
          obtain ⟨c', r', k1, k2, k3, _⟩ := hent e he ht
          have hcc : c = c' := by
            rw [← hact, k1] at hcx
            simpa [Act.verifierCall?] using hcx.symm
          subst hcc
          exact ⟨e, by rw [g2]; exact List.mem_append_right _ he, ht, k2.symm, by rw [k3, hm]⟩
      · intro a id vs n hsel hg
        rcases gotBefore_snoc hg with hg | ⟨hg, hn⟩
        · obtain ⟨c, hc, h⟩ := h5 a id vs n hsel hg
          exact ⟨c, List.mem_append_left _ hc, h⟩
        · obtain ⟨e, he, e1, e2, e3⟩ := gets_entry hg (by rw [hV]; simp) hx
          obtain ⟨c, r, k1, k2, k3, k4⟩ := hent e he e1
          rw [e3] at k3
          simp only [Msg.verifier.injEq] at k3
          exact ⟨c, List.mem_append_right _ k4, by rw [k2, e2], k3.symm, by rw [hes c k4]; exact hn⟩
    | error x =>
      have hne : ∀ y, exec P (worldAfter P setup (t₁ ++ t₂)) tx ≠ .ok y := by
        intro y hy; rw [hx] at hy; simp at hy
      obtain ⟨g1, g2⟩ := log_snoc_error (P := P) (setup := setup) (txs := t₁ ++ t₂) (tx := tx) hne
      rw [g1]
      by_cases hsub : ∃ a id vs, sel a id vs ∧ Gets P setup (t₁ ++ t₂) tx a V (.verifier (.vote id vs))
      · obtain ⟨a, id, vs, hsel, hs⟩ := hsub
        obtain ⟨funds, hmsg⟩ := hs.message
        obtain ⟨hm, hgas⟩ : tx.msgs = [(V, funds, .verifier (.vote id vs))] ∧ 2 ≤ tx.gas := by
          rcases hmsg with h | ⟨_, y, hy⟩
          · exact h
          · exact absurd hy (hne y)
        obtain ⟨z, hz⟩ := vote_refused hV hm (by rw [hs.sender]; exact hs.outside) hgas hne
        rw [hs.sender] at hz
        refine ⟨cs ++ [⟨tx.block.height, a, none, .vote id vs⟩], ?_, horder _ (by simp), hheights _ (by simp), ?_, ?_⟩
        · rw [← List.append_assoc]
          unfold VV.stateAfter at h1 hz ⊢
          rw [runCalls_append, h1, runCalls_cons, runCalls_nil, hz]
          rfl
        · intro c hc id' vs' hm'
          rcases List.mem_append.mp hc with hc | hc
          · exact h4 c hc id' vs' hm'
          · rw [List.mem_singleton] at hc
            subst hc
            simp only [VV.Msg.vote.injEq] at hm'
            obtain ⟨rfl, rfl⟩ := hm'
            exact Or.inr hsel
        · intro a' id' vs' n hsel' hg
          rcases gotBefore_snoc hg with hg | ⟨hg, hn⟩
          · obtain ⟨c, hc, h⟩ := h5 a' id' vs' n hsel' hg
            exact ⟨c, List.mem_append_left _ hc, h⟩
          · obtain ⟨f', hm'⟩ := hg.message
            rcases hm' with ⟨hm', _⟩ | ⟨_, y, hy⟩
            · rw [hm] at hm'
              simp only [List.cons.injEq, Prod.mk.injEq, Msg.verifier.injEq, VV.Msg.vote.injEq, and_true,
                true_and] at hm'
              exact ⟨_, List.mem_append_right _ (List.mem_singleton_self _), by rw [← hs.sender, hg.sender],
                by rw [← hm'.2.1, ← hm'.2.2], hn⟩
            · exact absurd hy (hne y)
      · refine ⟨cs, h1, h2, ?_, h4, ?_⟩
        · intro c hc
          obtain ⟨t, ht, he⟩ := h3 c hc
          exact ⟨t, List.mem_append_left _ ht, he⟩
        · intro a id vs n hsel hg
          rcases gotBefore_snoc hg with hg | ⟨hg, _⟩
          · exact h5 a id vs n hsel hg
          · exact absurd ⟨a, id, vs, hsel, hg⟩ hsub

/-! ### C89 -/

/-- C89, verification: let a poll about `m` be open after `txs₁`, and let the daemons read its announcement.  If a quorum
`Q` of its workers run the daemon, each with a node that shows the contract call in a final block, and what they send gets
into blocks before the poll expires, then `m` is reported as verified, whatever else anyone sends. -/
theorem C89_verified (P : Params) (setup : Setup) (txs₁ txs₂ : List Tx) (ho : InOrder (txs₁ ++ txs₂)) (V : Addr)
    (vc : VV.Config) (hV : setup V = some (.verifier vc)) (hv : vc.Valid) (m : Message) (ws : List Registry.Worker)
    (confs : List VV.TxConfirmation) (pm : VV.PollMeta) (cf : VV.TxConfirmation)
    (hopen : PollOpened P (log P setup txs₁) V vc m ws confs pm cf) (s : Source) (hreads : s.Reads V confs pm cf)
    (Q : List Addr) (hnd : Q.Nodup) (hQ : ∀ a ∈ Q, ∃ w ∈ ws, w.address = a)
    (hquorum : ws.length * vc.threshold.num ≤ Q.length * vc.threshold.den)
    (hsend : ∀ a ∈ Q, ∃ latest sent, s.Handled V confs pm cf a latest sent ∧ latest < pm.expiresAt ∧
      ∀ t ∈ sent, GotBefore P setup txs₁ txs₂ t.sender t.contract (daemonMsg t.msg) pm.expiresAt)
    (hdaemon : ∀ a ∈ Q, ∀ vs, VotedAt (log P setup (txs₁ ++ txs₂)) V a pm.pollId vs →
      ∃ latest sent, s.Handled V confs pm cf a latest sent ∧ ⟨a, V, .vote pm.pollId vs⟩ ∈ sent) :
    askVerifier P (worldAfter P setup (txs₁ ++ txs₂)) V [m] = some [(m.ccId, true)] := by
  obtain ⟨l₁, e, l₂, c, r, ms, hl, ht, ha, hm, hmem, hinj, hst, hws, hev, hcf⟩ := hopen
  have hi1 := inv P setup txs₁
  have hi2 := inv P setup (txs₁ ++ txs₂)
  subst ht
  obtain ⟨s', hx⟩ := verifier_exec hi1 hl hV ha
  have hsplit : verifierCalls e.p.target (log P setup txs₁) =
      verifierCalls e.p.target l₁ ++ c :: verifierCalls e.p.target l₂ := by
    rw [hl, show l₁ ++ e :: l₂ = l₁ ++ ([e] ++ l₂) by simp]
    simp only [verifierCalls, actsAt_append, actsAt_self _ e rfl, ha, List.filterMap_append]
    rfl
  obtain ⟨cs, c1, c2, c3, c4, c5⟩ := voted (P := P) hV ho
    (fun a id vs => ∃ latest sent, s.Handled e.p.target confs pm cf a latest sent ∧
      ⟨a, e.p.target, .vote id vs⟩ ∈ sent)
  have ho1 : InOrder txs₁ := by
    unfold InOrder at ho ⊢
    rw [List.map_append, List.pairwise_append] at ho
    exact ho.1
  obtain ⟨hord1, hord2⟩ := calls_inOrder P setup e.p.target txs₁ ho1
  have hord : VV.InBlockOrder (verifierCalls e.p.target l₂ ++ cs) := by
    rw [hsplit] at hord1 hord2
    unfold VV.InBlockOrder at *
    rw [List.map_append, List.pairwise_append, List.map_cons, List.pairwise_cons] at hord1
    rw [List.map_append, List.pairwise_append]
    refine ⟨hord1.2.1.2, c2, ?_⟩
    intro x hx y hy
    obtain ⟨cx, hcx, rfl⟩ := List.mem_map.mp hx
    obtain ⟨cy, hcy, rfl⟩ := List.mem_map.mp hy
    obtain ⟨tx, htx, h1⟩ := hord2 cx (List.mem_append_right _ (List.mem_cons_of_mem _ hcx))
    obtain ⟨ty, hty, h2⟩ := c3 cy hcy
    rw [h1, h2]
    unfold InOrder at ho
    rw [List.map_append, List.pairwise_append] at ho
    exact ho.2.2 _ (List.mem_map_of_mem (f := fun t : Tx => t.block.height) htx) _
      (List.mem_map_of_mem (f := fun t : Tx => t.block.height) hty)
  -- votes of the daemons only
  have hvotes : ∀ d ∈ verifierCalls e.p.target l₂ ++ cs, d.sender ∈ Q → ∀ vs, d.msg = .vote pm.pollId vs →
      ∃ latest sent, s.Handled e.p.target confs pm cf d.sender latest sent ∧
        ⟨d.sender, e.p.target, .vote pm.pollId vs⟩ ∈ sent := by
    intro d hd hdQ vs hdm
    rcases List.mem_append.mp hd with hd | hd
    · refine hdaemon d.sender hdQ vs ?_
      obtain ⟨x, hx', hcx⟩ := List.mem_filterMap.mp hd
      obtain ⟨e', he', ht', hact⟩ := mem_actsAt hx'
      obtain ⟨u, v, rfl⟩ := List.append_of_mem he'
      obtain ⟨_, b, reply, s1, hcall⟩ := hi1.genuine (l₁ ++ e :: u) e' v (by rw [hl]; simp)
      have hlog : e' ∈ log P setup (txs₁ ++ txs₂) := by
        have : ∃ l', log P setup (txs₁ ++ txs₂) = log P setup txs₁ ++ l' := by
          unfold log
          rw [outs_append, List.flatMap_append]
          exact ⟨_, rfl⟩
        obtain ⟨l', h⟩ := this
        rw [h, hl]
        simp
      have hw : worldOf P setup (l₁ ++ e :: u) e'.p.target =
          some (replay P (.verifier vc) (actsAt e'.p.target (l₁ ++ e :: u))) := by
        rw [ht']; simp [worldOf, hV]
      unfold call at hcall
      rw [hw] at hcall
      simp only [replay] at hcall
      cases hmsg : e'.p.msg with
      | verifier m' =>
        rw [hmsg] at hcall
        simp only at hcall
        split at hcall
        · simp at hcall
        · simp only [Except.ok.injEq, Prod.mk.injEq] at hcall
          rw [← hact, ← hcall.2] at hcx
          simp only [Act.verifierCall?, Option.some.injEq] at hcx
          refine ⟨e', hlog, ht', ?_, ?_⟩
          · rw [← hcx]
          · rw [hmsg, ← hdm, ← hcx]
      | _ => rw [hmsg] at hcall; simp at hcall
    · rcases c4 d hd _ _ hdm with h | h
      · exact hdaemon d.sender hdQ vs h
      · exact h
  rw [askVerifier_one hi2 hV, ← c1, hsplit, List.append_assoc, List.cons_append]
  cases s with
  | evm D L R decodeLog chain saw onChain =>
    obtain ⟨p, dm, hp, hdm, hch⟩ := hreads
    refine Ampd.Evm.C78_evm_daemons_verify P.H vc hv _ _ hm hx hmem hst hinj hws hev hcf hord L R decodeLog e.p.target
      chain hp hdm hch Q hnd hQ hquorum
      (fun a E => saw a E ∧ Ampd.Evm.Shows L decodeLog chain pm.confirmationHeight p.sourceGateway dm E)
      (fun a _ E h => h.2) ?_ ?_
    · intro a ha
      obtain ⟨latest, sent, ⟨E, p', dm', h1, rfl, h2, h3, h4, h5, rfl⟩, hlate, hgot⟩ := hsend a ha
      rw [hp] at h2
      rw [hdm] at h3
      simp only [Option.some.injEq] at h2 h3
      subst h2 h3
      refine ⟨E, ⟨h1, h4⟩, hlate, h5, ?_⟩
      intro t htm
      obtain ⟨p1, f, _, _, rfl⟩ := Ampd.Evm.handleMessages_sent htm
      obtain ⟨d, hd, d1, d2, d3⟩ := c5 _ _ _ _ ⟨_, _, ⟨E, _, _, h1, rfl, hp, hdm, h4, h5, rfl⟩, htm⟩ (hgot _ htm)
      refine ⟨d, List.mem_append_right _ hd, ?_, d3⟩
      simp only [Ampd.ballotCall, Option.some.injEq]
      rw [← d1, ← d2]
    · intro d hd hdQ vs hdm'
      obtain ⟨latest, sent, ⟨E, p', dm', h1, rfl, h2, h3, h4, h5, rfl⟩, hin⟩ := hvotes d hd hdQ vs hdm'
      rw [hp] at h2
      rw [hdm] at h3
      simp only [Option.some.injEq] at h2 h3
      subst h2 h3
      exact ⟨E, ⟨h1, h4⟩, hin⟩
  | sui J L R json saw onChain =>
    obtain ⟨p, dm, hp, hdm⟩ := hreads
    refine Ampd.Sui.C78_sui_daemons_verify P.H vc hv _ _ hm hx hmem hst hinj hws hev hcf hord L R json e.p.target
      hp hdm Q hnd hQ hquorum (fun a E => saw a E ∧ Ampd.Sui.Shows L json p dm E)
      (fun a _ E h => h.2) ?_ ?_
    · intro a ha
      obtain ⟨latest, sent, ⟨E, p', dm', h1, rfl, h2, h3, h4, rfl⟩, hlate, hgot⟩ := hsend a ha
      rw [hp] at h2
      rw [hdm] at h3
      simp only [Option.some.injEq] at h2 h3
      subst h2 h3
      refine ⟨E, ⟨h1, h4⟩, hlate, ?_⟩
      intro t htm
      obtain ⟨p1, f, _, _, rfl⟩ := Ampd.Sui.handleMessages_sent htm
      obtain ⟨d, hd, d1, d2, d3⟩ := c5 _ _ _ _ ⟨_, _, ⟨E, _, _, h1, rfl, hp, hdm, h4, rfl⟩, htm⟩ (hgot _ htm)
      refine ⟨d, List.mem_append_right _ hd, ?_, d3⟩
      simp only [Ampd.ballotCall, Option.some.injEq]
      rw [← d1, ← d2]
    · intro d hd hdQ vs hdm'
      obtain ⟨latest, sent, ⟨E, p', dm', h1, rfl, h2, h3, h4, rfl⟩, hin⟩ := hvotes d hd hdQ vs hdm'
      rw [hp] at h2
      rw [hdm] at h3
      simp only [Option.some.injEq] at h2 h3
      subst h2 h3
      exact ⟨E, ⟨h1, h4⟩, hin⟩

/-- C89, delivery: then anyone who asks the gateway of the source chain to route `m` has it delivered, unless a chain is
frozen. -/
theorem C89_delivered (P : Params) (setup : Setup) (txs₁ txs₂ : List Tx) (ho : InOrder (txs₁ ++ txs₂)) (R : Addr)
    (rc : Router.Config) (hR : setup R = some (.router rc)) (g : Addr) (gc : Gateway.Config)
    (hg : setup g = some (.gateway gc)) (hgR : gc.router = R) (vc : VV.Config)
    (hV : setup gc.verifier = some (.verifier vc)) (hv : vc.Valid) (m : Message) (ws : List Registry.Worker)
    (confs : List VV.TxConfirmation) (pm : VV.PollMeta) (cf : VV.TxConfirmation)
    (hopen : PollOpened P (log P setup txs₁) gc.verifier vc m ws confs pm cf) (s : Source)
    (hreads : s.Reads gc.verifier confs pm cf) (Q : List Addr) (hnd : Q.Nodup) (hQ : ∀ a ∈ Q, ∃ w ∈ ws, w.address = a)
    (hquorum : ws.length * vc.threshold.num ≤ Q.length * vc.threshold.den)
    (hsend : ∀ a ∈ Q, ∃ latest sent, s.Handled gc.verifier confs pm cf a latest sent ∧ latest < pm.expiresAt ∧
      ∀ t ∈ sent, GotBefore P setup txs₁ txs₂ t.sender t.contract (daemonMsg t.msg) pm.expiresAt)
    (hdaemon : ∀ a ∈ Q, ∀ vs, VotedAt (log P setup (txs₁ ++ txs₂)) gc.verifier a pm.pollId vs →
      ∃ latest sent, s.Handled gc.verifier confs pm cf a latest sent ∧ ⟨a, gc.verifier, .vote pm.pollId vs⟩ ∈ sent)
    (ep : Router.ChainEndpoint) (hn : chainInfo (worldAfter P setup (txs₁ ++ txs₂)) R m.ccId.chain = some ep)
    (hep : ep.gateway = g) (hfr : ep.frozenIn .incoming = false)
    (hdest : Open setup (worldAfter P setup (txs₁ ++ txs₂)) R rc m.destinationChain)
    (tx : Tx) (htx : ∃ funds msg, tx.msgs = [(g, funds, msg)] ∧ msg.toGateway = some (.routeMessages [m]))
    (hs : setup tx.sender = none) (hgas : 3 ≤ tx.gas) :
    (∃ x, exec P (worldAfter P setup (txs₁ ++ txs₂)) tx = .ok x) ∧
      Arrived P setup (txs₁ ++ txs₂ ++ [tx]) R rc m := by
  have hver := C89_verified P setup txs₁ txs₂ ho gc.verifier vc hV hv m ws confs pm cf hopen s hreads Q hnd hQ hquorum
    hsend hdaemon
  obtain ⟨h1, h2⟩ := C80_route_delivers P setup (txs₁ ++ txs₂) R rc hR g gc vc hg hgR hV m.ccId.chain ep hn hep hfr [m]
    (by simp) (by rw [hver]; rfl)
    (by
      intro m' hm' _
      simp only [List.mem_cons, List.not_mem_nil, or_false] at hm'
      subst hm'
      exact ⟨rfl, hdest⟩) tx htx hs (by simpa using hgas)
  exact ⟨h1, h2 m (List.mem_cons_self ..) hver⟩

/-- C89, proof: let a signing session of the prover at `Q` be announced.  If members whose weight reaches the threshold run
the daemon, whose key manager signs with their registered keys, and what they send gets into blocks, then `GetProof`
returns the batch with a payload for the destination chain, whatever else anyone sends. -/
theorem C89_proved (P : Params) (setup : Setup) (txs₁ txs₂ : List Tx) (Q : Addr) (pc : Prover.Config) (sv : Str)
    (kt : Multisig.KeyType) (hQ : setup Q = some (.prover pc sv kt)) (n d : Nat)
    (hth : Std.MajorityThreshold.ofPair n d = .ok pc.signingThreshold) (mc : Multisig.Config)
    (hM : setup pc.multisig = some (.multisig mc))
    (hd : SetsDistinctAt P (log P setup (txs₁ ++ txs₂)) pc.multisig) (height : Nat)
    (hrec : RecordsAt P setup (txs₁ ++ txs₂) mc.rewards height 2) (sid : Nat) (ws : WorkerSet)
    (keys : List (Addr × Multisig.PublicKey)) (digest : Encoding.Bytes) (chain : ChainName)
    (hann : AnnouncedAt (log P setup txs₁) pc.multisig sid (Prover.workerSetId P.X ws) keys digest chain)
    (hreg : registeredSet (worldAfter P setup txs₁) pc.multisig (Prover.workerSetId P.X ws) = some ws)
    (hown : shownBatch (worldAfter P setup txs₁) Q sid ≠ none)
    (hkeys : ∀ e ∈ ws.signers, Nameable P.X pc.encoder e.2.pubKey)
    (hc : ChainIdFits pc.encoder pc.destinationChainId)
    (hsize : ∀ b, shownBatch (worldAfter P setup (txs₁ ++ txs₂)) Q sid = some b →
      1000 * (1 + b.data.commands.length + ws.signers.length) + dataSize b.data < 2 ^ 31)
    (S : List Addr) (hS : S ≠ []) (hq : ws.threshold ≤ weightIn ws S)
    (hb : IsBytes digest) (R : Ampd.Signing.Reader) (hR : R.Plain digest)
    (hpts : ∀ p ∈ keys, (R.key p.2).isSome) (E : Addr → Ampd.Signing.Env)
    (hsign : ∀ a ∈ S, ∃ pk k sig, (a, pk) ∈ keys ∧ R.key pk = some k ∧
      (E a).sign pc.multisig digest k = some (Multisig.Signature.bytes sig) ∧ Multisig.Valid P.C digest pk sig)
    (hincl : ∀ a ∈ S, ∀ t ∈ (Ampd.Signing.handle (Ampd.Signing.readSigning R) ⟨a, pc.multisig⟩ (E a)
        (.abci (Ampd.Signing.announced pc.multisig
          (.signingStarted sid (Prover.workerSetId P.X ws) keys digest chain)))).sent,
      Got P setup txs₁ txs₂ t.sender t.contract (daemonMsg t.msg)) :
    ∃ b payload, shownBatch (worldAfter P setup (txs₁ ++ txs₂)) Q sid = some b ∧
      askProof P (worldAfter P setup (txs₁ ++ txs₂)) Q sid = .ok ⟨b.messageIds, b.data, .completed payload⟩ := by
  refine C82_completed P setup txs₁ txs₂ Q pc sv kt hQ n d hth mc hM hd height hrec sid ws keys digest chain hann hreg
    hown hkeys hc hsize S hS hq ?_
  have hi1 := inv P setup txs₁
  have hi2 := inv P setup (txs₁ ++ txs₂)
  obtain ⟨ops₁, ops₂, hp1, hp2⟩ := pair_extends P setup txs₁ txs₂ hQ hM
  have hnc := setsDistinct hi2 hp2 hM hd
  unfold Prover.SetsDistinct at hnc
  rw [hp2.received] at hnc
  have hann' := announcedAt_trace hi1 hM hann
  have hl : ∃ cs, multisigCalls pc.multisig (log P setup (txs₁ ++ txs₂)) =
      multisigCalls pc.multisig (log P setup txs₁) ++ cs := by
    have : ∃ l', log P setup (txs₁ ++ txs₂) = log P setup txs₁ ++ l' := by
      unfold log
      rw [outs_append, List.flatMap_append]
      exact ⟨_, rfl⟩
    obtain ⟨l', h⟩ := this
    refine ⟨multisigCalls pc.multisig l', ?_⟩
    rw [h]; unfold multisigCalls; rw [actsAt_append, List.filterMap_append]
  obtain ⟨cs, hl⟩ := hl
  rw [hl, Multisig.trace_append] at hnc
  have hnc1 : Multisig.NoCollision (Prover.workerSetId P.X) (Multisig.trace P.C (Prover.workerSetId P.X) mc
      (multisigCalls pc.multisig (log P setup txs₁))) := fun w w' r1 r2 => hnc w w' r1.mono r2.mono
  obtain ⟨se, ws', h1, _, h3, _, h5, h6⟩ := Ampd.Signing.announced_state P.C (Prover.workerSetId P.X) mc _ hnc1 sid _ keys
    digest chain hann'
  have hl32 : digest.length = 32 := by
    rw [← h3]; exact (Multisig.C48_origin P.C (Prover.workerSetId P.X) mc _ sid se h1).2
  have hnd : (keys.map Prod.fst).Nodup := by
    rw [h5]
    unfold WorkerSet.pubKeys
    rw [List.map_map]
    exact OMap.keys_nodup h6
  intro a ha
  obtain ⟨pk, k, sig, g1, g2, g3, g4⟩ := hsign a ha
  obtain ⟨hsent, _⟩ := Ampd.Signing.C77_submits R ⟨a, pc.multisig⟩ (E a) sid (Prover.workerSetId P.X ws) keys digest chain
    hb hl32 hR hpts hnd pk k _ g1 g2 g3
  exact ⟨pk, sig, g1, g4, hincl a ha ⟨a, pc.multisig, .submitSignature sid sig.bytes⟩ (by
    rw [hsent]; exact List.mem_singleton_self _)⟩

end Amp.Chain
