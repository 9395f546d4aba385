import Verif.Chain.Props
import Verif.Prover.Signed

/-!
# A prover and its multisig contract within the whole chain

The histories of `Verif/Prover/System.lean`, of a prover with its multisig contract, are what one sees of the
histories of the whole chain at these two addresses.
-/

namespace Amp.Chain

open Amp.Router (ChainName CCId Message)
open Amp.Prover (Op Sys SysResp sysAfter sysLog sysExec sysInit)

variable {P : Params} {setup : Setup} {l l₁ l₂ : List Entry} {w w' : World} {R Q : Addr} {e : Entry}
  {rc : Router.Config} {nc : Nexus.Config} {pc : Prover.Config} {sv : Str} {kt : Multisig.KeyType}
  {mc : Multisig.Config}

/-- the calls of the multisig contract at an address -/
def multisigCalls (a : Addr) (l : List Entry) : List Multisig.Call := (actsAt a l).filterMap Act.multisigCall?

/-- `ops` is what happened to the prover at `Q` and its multisig contract -/
structure Pair (P : Params) (setup : Setup) (Q : Addr) (pc : Prover.Config) (sv : Str) (kt : Multisig.KeyType)
    (mc : Multisig.Config) (l : List Entry) (w : World) (ops : List Op) : Prop where
  prover : w Q = some (.prover (sysAfter P.X P.C Q pc mc ops).prover sv kt)
  multisig : w pc.multisig = some (.multisig (sysAfter P.X P.C Q pc mc ops).multisig)
  calls : ∀ st ∈ sysLog P.X P.C Q pc mc ops, ∀ m env, st.call = .prover m env →
    ∃ l₁ e l₂ b, l = l₁ ++ e :: l₂ ∧ e.p.target = Q ∧ e.p.msg = .prover m ∧
      env = proverEnv P (worldOf P setup l₁) b pc sv kt ∧
      worldOf P setup l₁ Q = some (.prover st.pre.prover sv kt) ∧
      ∃ reply r, e.act = .prover pc.multisig ⟨m, env, reply⟩ r
  received : Prover.multisigCalls Q (sysLog P.X P.C Q pc mc ops) = multisigCalls pc.multisig l

theorem sysAfter_snoc {X : Encoding.Ext} {C : Multisig.Crypto} {ops : List Op} {op : Op} {S' : Sys} {r : SysResp}
    (h : sysExec X C Q (sysAfter X C Q pc mc ops) op = .ok (S', r)) :
    sysAfter X C Q pc mc (ops ++ [op]) = S' := runCalls_snoc h

theorem sys_prover_reachable (X : Encoding.Ext) (C : Multisig.Crypto) (Q : Addr) (pc : Prover.Config)
    (mc : Multisig.Config) (ops : List Op) :
    ∃ pcs, (sysAfter X C Q pc mc ops).prover = Prover.stateAfter X pc pcs := by
  unfold sysAfter
  exact (runCalls_inv (sysExec X C Q) (P := fun S =>
    (∃ mcs, S.multisig = Multisig.stateAfter C (Prover.workerSetId X) mc mcs) ∧
    ∃ pcs, S.prover = Prover.stateAfter X pc pcs)
    (fun S op S' r hi hx => Prover.sys_reach hx hi.1 hi.2) (sysInit pc mc) ⟨⟨[], rfl⟩, ⟨[], rfl⟩⟩ ops).2

theorem sysLog_snoc {X : Encoding.Ext} {C : Multisig.Crypto} {ops : List Op} {op : Op} {S' : Sys} {r : SysResp}
    (h : sysExec X C Q (sysAfter X C Q pc mc ops) op = .ok (S', r)) :
    sysLog X C Q pc mc (ops ++ [op]) = sysLog X C Q pc mc ops ++ [⟨sysAfter X C Q pc mc ops, op, r, S'⟩] := by
  unfold sysAfter at h
  unfold sysLog sysAfter
  rw [steps_append, steps_cons_ok _ h, steps_nil]

theorem multisigCalls_append (a : Addr) (l l' : List Entry) :
    multisigCalls a (l ++ l') = multisigCalls a l ++ multisigCalls a l' := by
  unfold multisigCalls
  rw [actsAt_append, List.filterMap_append]

/-- calls elsewhere do not matter -/
theorem Pair.other {ops : List Op} (hp : Pair P setup Q pc sv kt mc l w ops) {es : List Entry}
    (h1 : w' Q = w Q) (h2 : w' pc.multisig = w pc.multisig) (h3 : multisigCalls pc.multisig es = []) :
    Pair P setup Q pc sv kt mc (l ++ es) w' ops := by
  refine ⟨by rw [h1]; exact hp.prover, by rw [h2]; exact hp.multisig, ?_, ?_⟩
  · intro st hst m env hc
    obtain ⟨a, x, b, bl, h, rest⟩ := hp.calls st hst m env hc
    exact ⟨a, x, b ++ es, bl, by rw [h]; simp, rest⟩
  · rw [multisigCalls_append, h3, List.append_nil]
    exact hp.received

/-- a call of the multisig contract by someone other than the prover -/
theorem Pair.multisigCall {ops : List Op} (hp : Pair P setup Q pc sv kt mc l w ops) {es : List Entry}
    {c : Multisig.Call} {s' : Multisig.State} {r : Multisig.Resp}
    (hx : Multisig.exec P.C (Prover.workerSetId P.X) (sysAfter P.X P.C Q pc mc ops).multisig c = .ok (s', r))
    (h1 : w' Q = w Q) (h2 : w' pc.multisig = some (.multisig s')) (h3 : multisigCalls pc.multisig es = [c]) :
    ∃ ops', Pair P setup Q pc sv kt mc (l ++ es) w' (ops ++ ops') := by
  have hs : sysExec P.X P.C Q (sysAfter P.X P.C Q pc mc ops) (.multisig c) =
      .ok (⟨(sysAfter P.X P.C Q pc mc ops).prover, s'⟩, none) := by
    simp [sysExec, hx]
  refine ⟨[.multisig c], ?_, ?_, ?_, ?_⟩
  · rw [sysAfter_snoc hs, h1]; exact hp.prover
  · rw [sysAfter_snoc hs]; exact h2
  · rw [sysLog_snoc hs]
    intro st hst m env hc
    rcases List.mem_append.mp hst with hst | hst
    · obtain ⟨a, x, b, bl, h, rest⟩ := hp.calls st hst m env hc
      exact ⟨a, x, b ++ es, bl, by rw [h]; simp, rest⟩
    · rw [List.mem_singleton] at hst
      subst hst
      simp at hc
  · rw [sysLog_snoc hs, Prover.multisigCalls_snoc, multisigCalls_append, h3, hp.received]
    rfl

theorem call_multisig_ok {b : Block} {q : Pending} {reply : Option (Option Nat)} {ms : Store} {a : Act}
    {s : Multisig.State} (hw : w q.target = some (.multisig s)) (h : call P b w q reply = .ok (ms, a)) :
    ∃ m s' r, q.msg = .multisig m ∧ a = .multisig ⟨q.sender, b.height, m⟩ r ∧ ms = .multisig s' ∧
      Multisig.exec P.C (Prover.workerSetId P.X) s ⟨q.sender, b.height, m⟩ = .ok (s', r) := by
  unfold call at h
  rw [hw] at h
  cases hm : q.msg with
  | multisig m =>
    rw [hm] at h
    simp only at h
    split at h
    · simp at h
    · rename_i s' r hx
      simp only [Except.ok.injEq, Prod.mk.injEq] at h
      exact ⟨m, s', r, rfl, h.2.symm, h.1.symm, hx⟩
  | _ => rw [hm] at h; simp at h

theorem call_prover_ok {b : Block} {p : Pending} {reply : Option (Option Nat)} {st : Store} {a : Act}
    {s : Prover.State} (hw : w p.target = some (.prover s sv kt)) {m : Prover.Msg} (hm : p.msg = .prover m)
    (h : call P b w p reply = .ok (st, a)) :
    ∃ s' r, st = .prover s' sv kt ∧ a = .prover s.config.multisig ⟨m, proverEnv P w b s.config sv kt, reply⟩ r ∧
      Prover.exec P.X s ⟨m, proverEnv P w b s.config sv kt, reply⟩ = .ok (s', r) := by
  unfold call at h
  rw [hw, hm] at h
  simp only at h
  split at h
  · simp at h
  · rename_i s' r hx
    simp only [Except.ok.injEq, Prod.mk.injEq] at h
    exact ⟨s', r, h.1.symm, h.2.symm, hx⟩

theorem multisigCalls_one (a : Addr) (e : Entry) (h : e.p.target ≠ a) : multisigCalls a [e] = [] := by
  unfold multisigCalls
  rw [actsAt_other a e h]
  rfl

theorem multisigCalls_self (a : Addr) (e : Entry) (h : e.p.target = a) :
    multisigCalls a [e] = [e.act].filterMap Act.multisigCall? := by
  unfold multisigCalls
  rw [actsAt_self a e h]

theorem deliver_pair {ops : List Op} (hi : Inv P setup l w) (hp : Pair P setup Q pc sv kt mc l w ops) {b : Block}
    {p : Pending} {es : List Entry} {out : List Pending} (h : deliver P b w p = .ok (w', es, out)) :
    ∃ ops', Pair P setup Q pc sv kt mc (l ++ es) w' (ops ++ ops') := by
  have hne : Q ≠ pc.multisig := by
    intro hq
    have h1 := hp.prover
    rw [hq, hp.multisig] at h1
    simp at h1
  obtain ⟨pcs, hpcs⟩ := sys_prover_reachable P.X P.C Q pc mc ops
  have hcfg : (sysAfter P.X P.C Q pc mc ops).prover.config = pc := by
    rw [hpcs]; exact Prover.config_stateAfter P.X pc pcs
  unfold deliver at h
  cases hw : w p.target with
  | none =>
    rw [hw] at h
    simp only [call, hw] at h
    simp at h
  | some st =>
    rw [hw] at h
    cases st with
    | prover s sv' kt' =>
      simp only at h
      cases hm : p.msg with
      | prover m =>
        rw [hm] at h
        simp only at h
        cases hh : Prover.handle P.X s (proverEnv P w b s.config sv' kt') m with
        | error e => rw [hh] at h; simp at h
        | ok y =>
          obtain ⟨s1, o⟩ := y
          rw [hh] at h
          simp only at h
          obtain ⟨q, hq⟩ : ∃ q : Pending, q = ⟨p.target, s.config.multisig, [], .multisig o.toMultisig⟩ := ⟨_, rfl⟩
          rw [← hq] at h
          split at h
          · rename_i ms mcl mr hcm
            cases hcp : call P b w p (some mr.data) with
            | error e => rw [hcp] at h; simp at h
            | ok y =>
              obtain ⟨s', a⟩ := y
              rw [hcp] at h
              simp only [Except.ok.injEq, Prod.mk.injEq] at h
              obtain ⟨rfl, rfl, rfl⟩ := h
              obtain ⟨sm, hsm⟩ := call_multisig_store hcm
              obtain ⟨mm, sm', mr', g1, g2, g3, g4⟩ := call_multisig_ok hsm hcm
              simp only [Act.multisig.injEq] at g2
              obtain ⟨rfl, rfl⟩ := g2
              have hqs : q.sender = p.target := by rw [hq]
              have hqm : mm = o.toMultisig := by
                rw [hq] at g1
                simp only [Msg.multisig.injEq] at g1
                exact g1.symm
              have hqt : q.target = s.config.multisig := by rw [hq]
              rw [hqs, hqm] at g4
              obtain ⟨ps', pr, k1, k2, k3⟩ := call_prover_ok hw hm hcp
              have hpq : p.target ≠ q.target := by
                intro he
                rw [← he, hw] at hsm
                simp at hsm
              have htm : p.target ≠ pc.multisig := by
                intro he
                have := hp.multisig
                rw [← he, hw] at this
                simp at this
              have hcalls : multisigCalls pc.multisig [⟨p, a⟩, ⟨q, .multisig ⟨q.sender, b.height, mm⟩ mr⟩] =
                  multisigCalls pc.multisig [⟨q, .multisig ⟨q.sender, b.height, mm⟩ mr⟩] := by
                rw [show [(⟨p, a⟩ : Entry), ⟨q, .multisig ⟨q.sender, b.height, mm⟩ mr⟩] =
                  [⟨p, a⟩] ++ [⟨q, .multisig ⟨q.sender, b.height, mm⟩ mr⟩] from rfl, multisigCalls_append,
                  multisigCalls_one _ ⟨p, a⟩ htm, List.nil_append]
              rw [← hqt]
              by_cases hpQ : p.target = Q
              · -- the prover itself
                rw [hpQ, hp.prover] at hw
                simp only [Option.some.injEq, Store.prover.injEq] at hw
                obtain ⟨rfl, rfl, rfl⟩ := hw
                rw [hcfg] at hh hqt k2 k3
                have hqM : sm = (sysAfter P.X P.C Q pc mc ops).multisig := by
                  rw [hqt, hp.multisig] at hsm
                  simp only [Option.some.injEq, Store.multisig.injEq] at hsm
                  exact hsm.symm
                rw [hqM, hpQ] at g4
                have hs : sysExec P.X P.C Q (sysAfter P.X P.C Q pc mc ops) (.prover m (proverEnv P w b pc sv kt)) =
                    .ok (⟨ps', sm'⟩, some pr) := by
                  simp only [sysExec, hh]
                  have : (proverEnv P w b pc sv kt).height = b.height := rfl
                  rw [this, g4]
                  simp only
                  rw [k3]
                have hpr : pr.out = o := exec_out k3 hh
                refine ⟨[.prover m (proverEnv P w b pc sv kt)], ?_, ?_, ?_, ?_⟩
                · rw [sysAfter_snoc hs, KV.set_ne _ _ (by rw [← hpQ]; exact hpq), hpQ, KV.set_self, k1]
                · rw [sysAfter_snoc hs, ← hqt, KV.set_self, g3]
                · rw [sysLog_snoc hs]
                  intro st hst m' env hc
                  rcases List.mem_append.mp hst with hst | hst
                  · obtain ⟨a', x, b', bl, h, rest⟩ := hp.calls st hst m' env hc
                    exact ⟨a', x, b' ++ _, bl, by rw [h, List.append_assoc, List.cons_append], rest⟩
                  · rw [List.mem_singleton] at hst
                    subst hst
                    simp only [Op.prover.injEq] at hc
                    obtain ⟨rfl, rfl⟩ := hc
                    refine ⟨l, _, _, b, rfl, hpQ, hm, by rw [← hi.world], ?_, _, _, k2⟩
                    rw [← hi.world]
                    exact hp.prover
                · rw [sysLog_snoc hs, Prover.multisigCalls_snoc, multisigCalls_append, hcalls, hp.received,
                    multisigCalls_self _ _ hqt]
                  congr 1
                  show [(⟨Q, b.height, pr.out.toMultisig⟩ : Multisig.Call)] = [⟨q.sender, b.height, mm⟩]
                  rw [hqs, hpQ, hpr, hqm]
              · by_cases hqt' : q.target = pc.multisig
                · -- another prover with the same multisig contract
                  have hqM : sm = (sysAfter P.X P.C Q pc mc ops).multisig := by
                    rw [hqt', hp.multisig] at hsm
                    simp only [Option.some.injEq, Store.multisig.injEq] at hsm
                    exact hsm.symm
                  rw [hqM] at g4
                  refine hp.multisigCall g4 ?_ ?_ ?_
                  · rw [KV.set_ne _ _ (by rw [hqt']; exact hne), KV.set_ne _ _ (Ne.symm hpQ)]
                  · rw [← hqt', KV.set_self, g3]
                  · rw [hcalls, multisigCalls_self _ _ hqt']
                    show [(⟨q.sender, b.height, mm⟩ : Multisig.Call)] = _
                    rw [hqs, hqm]
                · refine ⟨[], (List.append_nil ops).symm ▸ hp.other ?_ ?_ ?_⟩
                  · rw [KV.set_ne, KV.set_ne _ _ (Ne.symm hpQ)]
                    intro he
                    rw [← he, hp.prover] at hsm
                    simp at hsm
                  · rw [KV.set_ne _ _ (Ne.symm hqt'), KV.set_ne _ _ (Ne.symm htm)]
                  · rw [hcalls, multisigCalls_one _ _ hqt']
          · simp at h
      | _ => rw [hm] at h; simp at h
    | verifier s | gateway s | router s | nexus s | registry s | rewards s =>
      simp only at h
      cases hc : call P b w p none with
      | error e => rw [hc] at h; simp at h
      | ok y =>
        obtain ⟨s', a⟩ := y
        rw [hc] at h
        simp only [Except.ok.injEq, Prod.mk.injEq] at h
        obtain ⟨rfl, rfl, rfl⟩ := h
        have hQ : Q ≠ p.target := by
          intro he
          have := hp.prover
          rw [he, hw] at this
          simp at this
        have hM : pc.multisig ≠ p.target := by
          intro he
          have := hp.multisig
          rw [he, hw] at this
          simp at this
        exact ⟨[], by
          rw [List.append_nil]
          exact hp.other (KV.set_ne _ _ hQ) (KV.set_ne _ _ hM) (multisigCalls_one _ _ (Ne.symm hM))⟩
    | multisig s =>
      simp only at h
      cases hc : call P b w p none with
      | error e => rw [hc] at h; simp at h
      | ok y =>
        obtain ⟨s', a⟩ := y
        rw [hc] at h
        simp only [Except.ok.injEq, Prod.mk.injEq] at h
        obtain ⟨rfl, rfl, rfl⟩ := h
        have hQ : Q ≠ p.target := by
          intro he
          have := hp.prover
          rw [he, hw] at this
          simp at this
        obtain ⟨mm, sm', mr, g1, g2, g3, g4⟩ := call_multisig_ok hw hc
        by_cases hM : pc.multisig = p.target
        · have hs : s = (sysAfter P.X P.C Q pc mc ops).multisig := by
            have := hp.multisig
            rw [hM, hw] at this
            simp only [Option.some.injEq, Store.multisig.injEq] at this
            exact this
          rw [hs] at g4
          refine hp.multisigCall g4 (KV.set_ne _ _ hQ) ?_ ?_
          · rw [hM, KV.set_self, g3]
          · rw [multisigCalls_self _ _ hM.symm, g2]
            rfl
        · exact ⟨[], by
          rw [List.append_nil]
          exact hp.other (KV.set_ne _ _ hQ) (KV.set_ne _ _ hM) (multisigCalls_one _ _ (Ne.symm hM))⟩

theorem run_pair {b : Block} {accepts : Addr → Bool} (n : Nat) :
    ∀ {l : List Entry} {w w' : World} {ps : List Pending} {es : List Entry} {ops : List Op}, Inv P setup l w →
      (∀ p ∈ ps, Origin setup l p) → Pair P setup Q pc sv kt mc l w ops →
      run P b accepts n w ps = .ok (w', es) → ∃ ops', Pair P setup Q pc sv kt mc (l ++ es) w' (ops ++ ops') := by
  induction n with
  | zero =>
    intro l w w' ps es ops hi ho hp h
    cases ps with
    | nil =>
      simp only [run, Except.ok.injEq, Prod.mk.injEq] at h
      obtain ⟨rfl, rfl⟩ := h
      exact ⟨[], by simpa using hp⟩
    | cons p t => simp [run] at h
  | succ n ih =>
    intro l w w' ps es ops hi ho hp h
    cases ps with
    | nil =>
      simp only [run, Except.ok.injEq, Prod.mk.injEq] at h
      obtain ⟨rfl, rfl⟩ := h
      exact ⟨[], by simpa using hp⟩
    | cons p t =>
      rw [run] at h
      split at h
      · exact ih hi (fun q hq => ho q (List.mem_cons_of_mem _ hq)) hp h
      · cases hd : deliver P b w p with
        | error e => rw [hd] at h; simp at h
        | ok y =>
          obtain ⟨w1, es1, out⟩ := y
          rw [hd] at h
          simp only at h
          obtain ⟨hi1, ho1⟩ := deliver_inv hi (ho p (List.mem_cons_self ..)) hd
          obtain ⟨o1, hp1⟩ := deliver_pair hi hp hd
          cases hr : run P b accepts n w1 (out ++ t) with
          | error e => rw [hr] at h; simp at h
          | ok z =>
            obtain ⟨w2, es2⟩ := z
            rw [hr] at h
            simp only [Except.ok.injEq, Prod.mk.injEq] at h
            obtain ⟨rfl, rfl⟩ := h
            rw [← List.append_assoc]
            have ho2 : ∀ q ∈ out ++ t, Origin setup (l ++ es1) q := by
              intro q hq
              rcases List.mem_append.mp hq with hq | hq
              · exact ho1 q hq
              · exact (ho q (List.mem_cons_of_mem _ hq)).mono
            obtain ⟨o2, hp2⟩ := ih hi1 ho2 hp1 hr
            exact ⟨o1 ++ o2, by rw [← List.append_assoc]; exact hp2⟩

/-- a transaction adds to what happened to a prover and its multisig contract -/
theorem exec_pair {tx : Tx} {ops : List Op} {es : List Entry} (hi : Inv P setup l w)
    (hp : Pair P setup Q pc sv kt mc l w ops) (h : exec P w tx = .ok (w', es)) :
    Inv P setup (l ++ es) w' ∧ ∃ ops', Pair P setup Q pc sv kt mc (l ++ es) w' (ops ++ ops') := by
  unfold exec at h
  split at h
  · simp at h
  · rename_i hs
    have ho : ∀ p ∈ tx.msgs.map (fun m => (⟨tx.sender, m.1, m.2.1, m.2.2⟩ : Pending)), Origin setup l p := by
      intro p hp
      obtain ⟨m, _, rfl⟩ := List.mem_map.mp hp
      left
      rw [hi.world] at hs
      simp only [worldOf, Option.isSome_map, Bool.not_eq_true, Option.isSome_eq_false_iff,
        Option.isNone_iff_eq_none] at hs
      exact hs
    exact ⟨run_inv _ hi ho h, run_pair _ hi ho hp h⟩

/-- what happens to a prover and its multisig contract in a history of the whole chain is a history of the two -/
theorem pair (P : Params) (setup : Setup) (txs : List Tx) (hQ : setup Q = some (.prover pc sv kt))
    (hM : setup pc.multisig = some (.multisig mc)) :
    ∃ ops, Pair P setup Q pc sv kt mc (log P setup txs) (worldAfter P setup txs) ops := by
  refine (outs_inv (exec P) (P := fun lg w => Inv P setup (lg.flatMap Prod.snd) w ∧
    ∃ ops, Pair P setup Q pc sv kt mc (lg.flatMap Prod.snd) w ops) (genesis setup)
    ⟨Inv.genesis P setup, ⟨[], ?_, ?_, ?_, rfl⟩⟩ ?_ txs).2
  · simp only [genesis, hQ]; rfl
  · simp only [genesis, hM]; rfl
  · intro st hst
    cases hst
  · rintro lg w tx w' es ⟨hi, ops, hp⟩ h
    rw [List.flatMap_append]
    simp only [List.flatMap_cons, List.flatMap_nil, List.append_nil]
    obtain ⟨h1, o, h2⟩ := exec_pair hi hp h
    exact ⟨h1, _, h2⟩

end Amp.Chain
