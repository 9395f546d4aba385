import Verif.Chain.DeploySpec

/-!
# Lemmas for C105
-/

namespace Amp.Chain

open Amp.Router (ChainName CCId Message)

/-! ### Answers that were not asked for make no difference -/

/-- `e'` answers whatever `e` answers -/
structure Wider (e e' : Prover.Env) : Prop where
  height : e'.height = e.height
  gateway : ∀ ids r, e.gateway ids = .ok r → e'.gateway ids = .ok r
  activeWorkers : ∀ r, e.activeWorkers = .ok r → e'.activeWorkers = .ok r
  publicKey : ∀ a r, e.publicKey a = .ok r → e'.publicKey a = .ok r
  verified : ∀ o r, e.verified o = .ok r → e'.verified o = .ok r

theorem mapE_mono {α β ε : Type} {f g : α → Except ε β} (h : ∀ a b, f a = .ok b → g a = .ok b) :
    ∀ (l : List α) (r : List β), mapE f l = .ok r → mapE g l = .ok r := by
  intro l
  induction l with
  | nil => intro r hr; exact hr
  | cons a t ih =>
    intro r hr
    simp only [mapE] at hr ⊢
    cases ha : f a with
    | error e => rw [ha] at hr; cases hr
    | ok b =>
      rw [ha] at hr
      rw [h a b ha]
      dsimp only at hr ⊢
      cases ht : mapE f t with
      | error e => rw [ht] at hr; cases hr
      | ok bs => rw [ht] at hr; rw [ih bs ht]; exact hr

theorem makeWorkerSet_mono {e e' : Prover.Env} (h : Wider e e') (cfg : Prover.Config) (r : Multisig.WorkerSet)
    (hr : Prover.makeWorkerSet cfg e = .ok r) : Prover.makeWorkerSet cfg e' = .ok r := by
  unfold Prover.makeWorkerSet at hr ⊢
  cases ha : e.activeWorkers with
  | error x => rw [ha] at hr; cases hr
  | ok ws =>
    rw [ha] at hr
    rw [h.activeWorkers ws ha]
    dsimp only at hr ⊢
    cases hp : mapE Prover.participantOf ws with
    | error x => rw [hp] at hr; cases hr
    | ok ps =>
      rw [hp] at hr
      dsimp only at hr ⊢
      cases hn : Std.Snapshot.new cfg.signingThreshold ps with
      | error x => rw [hn] at hr; cases x <;> cases hr
      | ok sn =>
        rw [hn] at hr
        dsimp only at hr ⊢
        cases hk : mapE (fun w : Registry.Worker => e.publicKey w.address) ws with
        | error x => rw [hk] at hr; cases hr
        | ok ks =>
          rw [hk] at hr
          rw [mapE_mono (fun (w : Registry.Worker) b hb => h.publicKey w.address b hb) ws ks hk, h.height]
          exact hr

theorem nextWorkerSet_mono {e e' : Prover.Env} (h : Wider e e') (s : Prover.State) (r : Option Multisig.WorkerSet)
    (hr : Prover.nextWorkerSet s e = .ok r) : Prover.nextWorkerSet s e' = .ok r := by
  unfold Prover.nextWorkerSet at hr ⊢
  cases hm : Prover.makeWorkerSet s.config e with
  | error x => rw [hm] at hr; cases hr
  | ok ws => rw [hm] at hr; rw [makeWorkerSet_mono h _ _ hm]; exact hr

theorem handle_mono {e e' : Prover.Env} (h : Wider e e') (X : Encoding.Ext) (s : Prover.State) (m : Prover.Msg)
    (r : Prover.State × Prover.Out) (hr : Prover.handle X s e m = .ok r) : Prover.handle X s e' m = .ok r := by
  cases m with
  | constructProof ids =>
    simp only [Prover.handle] at hr ⊢
    unfold Prover.constructProof at hr ⊢
    have hg : ∀ ms, Prover.getMessages s e ids = .ok ms → Prover.getMessages s e' ids = .ok ms := by
      intro ms hms
      unfold Prover.getMessages at hms ⊢
      cases hq : e.gateway ids with
      | error x => rw [hq] at hms; cases hms
      | ok l => rw [hq] at hms; rw [h.gateway ids l hq]; exact hms
    cases hq : Prover.getMessages s e ids with
    | error x => rw [hq] at hr; cases hr
    | ok ms =>
      rw [hq] at hr
      rw [hg ms hq]
      dsimp only at hr ⊢
      cases hb : s.batches (Prover.batchId X ids none) with
      | some b => rw [hb] at hr; exact hr
      | none =>
        rw [hb] at hr
        dsimp only at hr ⊢
        have hn : ∀ x, Prover.newBatch X s e ms = .ok x → Prover.newBatch X s e' ms = .ok x := by
          intro x hx
          unfold Prover.newBatch at hx ⊢
          cases hw : Prover.nextWorkerSet s e with
          | error y => rw [hw] at hx; cases hx
          | ok ws => rw [hw] at hx; rw [nextWorkerSet_mono h s ws hw]; exact hx
        cases hw : Prover.newBatch X s e ms with
        | error y => rw [hw] at hr; cases hr
        | ok x => rw [hw] at hr; rw [hn x hw]; exact hr
  | updateWorkerSet =>
    simp only [Prover.handle] at hr ⊢
    unfold Prover.updateWorkerSet at hr ⊢
    cases hc : s.current with
    | none =>
      rw [hc] at hr
      dsimp only at hr ⊢
      cases hm : Prover.makeWorkerSet s.config e with
      | error x => rw [hm] at hr; cases hr
      | ok ws => rw [hm] at hr; rw [makeWorkerSet_mono h _ _ hm]; exact hr
    | some cur =>
      rw [hc] at hr
      dsimp only at hr ⊢
      cases hm : Prover.nextWorkerSet s e with
      | error x => rw [hm] at hr; cases hr
      | ok ws => rw [hm] at hr; rw [nextWorkerSet_mono h s _ hm]; exact hr
  | confirmWorkerSet =>
    simp only [Prover.handle] at hr ⊢
    unfold Prover.confirmWorkerSet at hr ⊢
    cases hn : s.next with
    | none => rw [hn] at hr; cases hr
    | some ws =>
      rw [hn] at hr
      dsimp only at hr ⊢
      cases ho : Prover.makeOperators X s.config.encoder ws with
      | error x => rw [ho] at hr; cases hr
      | ok o =>
        rw [ho] at hr
        dsimp only at hr ⊢
        cases hv : e.verified o with
        | error x => rw [hv] at hr; cases hr
        | ok b => rw [hv] at hr; rw [h.verified o b hv]; exact hr

theorem prover_mono {e e' : Prover.Env} (h : Wider e e') (X : Encoding.Ext) (s : Prover.State) (m : Prover.Msg)
    (a : Option (Option Nat)) (r : Prover.State × Prover.Resp) (hr : Prover.exec X s ⟨m, e, a⟩ = .ok r) :
    Prover.exec X s ⟨m, e', a⟩ = .ok r := by
  unfold Prover.exec at hr ⊢
  dsimp only at hr ⊢
  cases hh : Prover.handle X s e m with
  | error x => rw [hh] at hr; cases hr
  | ok y => rw [hh] at hr; rw [handle_mono h X s m y hh]; exact hr

theorem takeSnapshot_mono {cfg : VV.Config} {ws ws' : Option (List Registry.Worker)} (h : ∀ l, ws = some l → ws' = some l)
    {r : Std.Snapshot} (hr : VV.takeSnapshot cfg ws = .ok r) : VV.takeSnapshot cfg ws' = .ok r := by
  cases hw : ws with
  | none => rw [hw] at hr; simp [VV.takeSnapshot] at hr
  | some l => rw [h l hw]; rw [hw] at hr; exact hr

theorem verifier_mono {ws ws' : Option (List Registry.Worker)} (h : ∀ l, ws = some l → ws' = some l) (H : VV.Hashes)
    (s : VV.State) (n : Nat) (a : Addr) (m : VV.Msg) (r : VV.State × VV.Resp) (hr : VV.exec H s ⟨n, a, ws, m⟩ = .ok r) :
    VV.exec H s ⟨n, a, ws', m⟩ = .ok r := by
  cases m with
  | vote id vs => exact hr
  | endPoll id => exact hr
  | verifyMessages ms =>
    simp only [VV.exec] at hr ⊢
    unfold VV.verifyMessages at hr ⊢
    dsimp only at hr ⊢
    split at hr
    · cases hr
    split at hr
    · cases hr
    rename_i h1 h2
    rw [if_neg h1, if_neg h2]
    cases h3 : VV.isVerified H s ms with
    | error x => rw [h3] at hr; cases hr
    | ok ans =>
      rw [h3] at hr
      dsimp only at hr ⊢
      cases h4 : mapE (VV.msgStatus H s) ms with
      | error x => rw [h4] at hr; cases hr
      | ok sts =>
        rw [h4] at hr
        dsimp only at hr ⊢
        split at hr
        · rename_i h5
          rw [if_pos h5]; exact hr
        · rename_i h5
          rw [if_neg h5]
          cases h6 : VV.takeSnapshot s.config ws with
          | error x => rw [h6] at hr; cases hr
          | ok sn => rw [h6] at hr; rw [takeSnapshot_mono h h6]; exact hr
  | verifyWorkerSet mid o =>
    simp only [VV.exec] at hr ⊢
    unfold VV.verifyWorkerSet at hr ⊢
    dsimp only at hr ⊢
    cases h1 : VV.isWorkerSetVerified H s o with
    | error x => rw [h1] at hr; cases hr
    | ok b =>
      rw [h1] at hr
      cases b with
      | true => cases hr
      | false =>
        dsimp only at hr ⊢
        cases h6 : VV.takeSnapshot s.config ws with
        | error x => rw [h6] at hr; cases hr
        | ok sn => rw [h6] at hr; rw [takeSnapshot_mono h h6]; exact hr

theorem gateway_mono {f g : List Message → Option (List (CCId × Bool))} (h : ∀ ms r, f ms = some r → g ms = some r)
    (s : Gateway.State) (a : Addr) (m : Gateway.Msg) (r : Gateway.State × Gateway.Resp) (hr : Gateway.exec s ⟨a, f, m⟩ = .ok r) :
    Gateway.exec s ⟨a, g, m⟩ = .ok r := by
  have hp : ∀ ms x, Gateway.partitionByVerified f ms = .ok x → Gateway.partitionByVerified g ms = .ok x := by
    intro ms x hx
    unfold Gateway.partitionByVerified at hx ⊢
    cases hf : f ms with
    | none => rw [hf] at hx; cases hx
    | some l => rw [hf] at hx; rw [h ms l hf]; exact hx
  cases m with
  | verifyMessages ms =>
    simp only [Gateway.exec] at hr ⊢
    unfold Gateway.verifyMessages at hr ⊢
    dsimp only at hr ⊢
    split at hr
    · rename_i h1; rw [if_pos h1]; exact hr
    split at hr
    · cases hr
    rename_i h1 h2
    rw [if_neg h1, if_neg h2]
    cases h3 : Gateway.partitionByVerified f ms with
    | error x => rw [h3] at hr; cases hr
    | ok x => rw [h3] at hr; rw [hp ms x h3]; exact hr
  | routeMessages ms =>
    simp only [Gateway.exec] at hr ⊢
    split at hr
    · rename_i h1; rw [if_pos h1]; exact hr
    rename_i h1
    rw [if_neg h1]
    unfold Gateway.routeIncoming at hr ⊢
    dsimp only at hr ⊢
    split at hr
    · cases hr
    rename_i h2
    rw [if_neg h2]
    cases h3 : Gateway.partitionByVerified f ms with
    | error x => rw [h3] at hr; cases hr
    | ok x => rw [h3] at hr; rw [hp ms x h3]; exact hr

/-! ### Contracts that come later are there from the start -/

/-- the storage with the contracts that are still to come -/
def fill (σ : Setup) (w : World) : World := fun a =>
  match w a with
  | some s => some s
  | none => (σ a).map Kind.init

theorem fill_some {σ : Setup} {w : World} {a : Addr} {s : Store} (h : w a = some s) : fill σ w a = some s := by
  simp only [fill, h]

theorem fill_set (σ : Setup) (w : World) (a : Addr) (s : Store) : fill σ (w.set a s) = (fill σ w).set a s := by
  funext x
  simp only [fill, KV.set]
  by_cases hx : x = a
  · simp [hx]
  · simp [hx]

theorem askVerifier_fill (P : Params) {σ : Setup} {w : World} {a : Addr} (ms : List Message) (r : List (CCId × Bool))
    (h : askVerifier P w a ms = some r) : askVerifier P (fill σ w) a ms = some r := by
  unfold askVerifier at h ⊢
  cases hw : w a with
  | none => rw [hw] at h; cases h
  | some s => rw [hw] at h; rw [fill_some hw]; exact h

theorem askWorkers_fill {σ : Setup} {w : World} {a : Addr} {sv : Str} {c : ChainName} (r : List Registry.Worker)
    (h : askWorkers w a sv c = some r) : askWorkers (fill σ w) a sv c = some r := by
  unfold askWorkers at h ⊢
  cases hw : w a with
  | none => rw [hw] at h; cases h
  | some s => rw [hw] at h; rw [fill_some hw]; exact h

theorem proverEnv_fill (P : Params) (σ : Setup) (w : World) (b : Block) (cfg : Prover.Config) (sv : Str)
    (kt : Multisig.KeyType) : Wider (proverEnv P w b cfg sv kt) (proverEnv P (fill σ w) b cfg sv kt) := by
  refine ⟨rfl, ?_, ?_, ?_, ?_⟩
  · intro ids r h
    simp only [proverEnv, askGateway] at h ⊢
    cases hw : w cfg.gateway with
    | none => rw [hw] at h; cases h
    | some s => rw [hw] at h; rw [fill_some hw]; exact h
  · intro r h
    simp only [proverEnv] at h ⊢
    cases hw : askWorkers w cfg.serviceRegistry sv cfg.chainName with
    | none => rw [hw] at h; cases h
    | some l => rw [hw] at h; rw [askWorkers_fill l hw]; exact h
  · intro a r h
    simp only [proverEnv, askKey] at h ⊢
    cases hw : w cfg.multisig with
    | none => rw [hw] at h; cases h
    | some s => rw [hw] at h; rw [fill_some hw]; exact h
  · intro o r h
    simp only [proverEnv, askSet] at h ⊢
    cases hw : w cfg.votingVerifier with
    | none => rw [hw] at h; cases h
    | some s => rw [hw] at h; rw [fill_some hw]; exact h

theorem call_fill {P : Params} {b : Block} (σ : Setup) {w : World} {p : Pending} {reply : Option (Option Nat)} {s' : Store}
    {act : Act} (h : call P b w p reply = .ok (s', act)) :
    ∃ act', call P b (fill σ w) p reply = .ok (s', act') ∧ act'.blind = act.blind ∧ act'.outs = act.outs ∧
      ∀ c r, act = .multisig c r → act' = act := by
  unfold call at h ⊢
  cases hw : w p.target with
  | none => rw [hw] at h; cases h
  | some s =>
    rw [hw] at h
    rw [fill_some hw]
    cases s with
    | verifier s =>
      dsimp only at h ⊢
      cases hm : p.msg <;> rw [hm] at h <;> try (cases h; done)
      dsimp only at h ⊢
      split at h
      · cases h
      · rename_i s1 r hx
        rw [verifier_mono (fun l hl => askWorkers_fill (σ := σ) l hl) _ _ _ _ _ _ hx]
        cases h
        exact ⟨_, rfl, rfl, rfl, by intro _ _ e; cases e⟩
    | gateway s =>
      dsimp only at h ⊢
      cases hm : p.msg.toGateway with
      | none => rw [hm] at h; cases h
      | some m =>
        rw [hm] at h
        dsimp only at h ⊢
        split at h
        · cases h
        · rename_i s1 r hx
          rw [gateway_mono (fun ms r hr => askVerifier_fill P (σ := σ) ms r hr) _ _ _ _ hx]
          cases h
          exact ⟨_, rfl, rfl, rfl, by intro _ _ e; cases e⟩
    | router s => exact ⟨act, h, rfl, rfl, fun _ _ _ => rfl⟩
    | nexus s => exact ⟨act, h, rfl, rfl, fun _ _ _ => rfl⟩
    | registry s => exact ⟨act, h, rfl, rfl, fun _ _ _ => rfl⟩
    | rewards s => exact ⟨act, h, rfl, rfl, fun _ _ _ => rfl⟩
    | multisig s => exact ⟨act, h, rfl, rfl, fun _ _ _ => rfl⟩
    | prover s sv kt =>
      dsimp only at h ⊢
      cases hm : p.msg <;> rw [hm] at h <;> try (cases h; done)
      dsimp only at h ⊢
      split at h
      · cases h
      · rename_i s1 r hx
        rw [prover_mono (proverEnv_fill P σ w b s.config sv kt) _ _ _ _ _ hx]
        cases h
        exact ⟨_, rfl, rfl, rfl, by intro _ _ e; cases e⟩

/-- storages are never removed -/
def Grown (w w' : World) : Prop := ∀ a, w' a = none → w a = none

theorem grown_set (w : World) (a : Addr) (s : Store) : Grown w (w.set a s) := by
  intro x hx
  simp only [KV.set] at hx
  split at hx
  · cases hx
  · exact hx

theorem deliver_fill {P : Params} {b : Block} (σ : Setup) {w w' : World} {p : Pending} {es : List Entry} {out : List Pending}
    (h : deliver P b w p = .ok (w', es, out)) :
    Grown w w' ∧ ∃ es', deliver P b (fill σ w) p = .ok (fill σ w', es', out) ∧ es'.map Entry.blind = es.map Entry.blind := by
  have plain : ∀ {s' : Store} {a : Act}, call P b w p none = .ok (s', a) →
      ∃ a', call P b (fill σ w) p none = .ok (s', a') ∧ Entry.sent ⟨p, a'⟩ = Entry.sent ⟨p, a⟩ ∧ a'.blind = a.blind := by
    intro s' a hc
    obtain ⟨a', h1, h2, h3, -⟩ := call_fill σ hc
    exact ⟨a', h1, by simp only [Entry.sent, h3], h2⟩
  unfold deliver at h ⊢
  cases hw : w p.target with
  | none =>
    rw [hw] at h
    dsimp only at h
    split at h
    · cases h
    · rename_i s' a hc
      unfold call at hc
      rw [hw] at hc
      cases hc
  | some s =>
    rw [hw] at h
    rw [fill_some hw]
    cases s with
    | prover s sv kt =>
      dsimp only at h ⊢
      cases hm : p.msg <;> rw [hm] at h <;> try (cases h; done)
      dsimp only at h ⊢
      split at h
      · cases h
      rename_i s1 out1 hh
      rw [handle_mono (proverEnv_fill P σ w b s.config sv kt) _ _ _ _ hh]
      dsimp only at h ⊢
      split at h
      · rename_i ms mc mr hq
        obtain ⟨q', hq1, hq2, -, hq4⟩ := call_fill σ hq
        rw [hq4 mc mr rfl] at hq1
        rw [hq1]
        dsimp only at h ⊢
        split at h
        · cases h
        · rename_i s' a hc
          obtain ⟨a', h1, h2, -, -⟩ := call_fill σ hc
          rw [h1]
          cases h
          refine ⟨?_, [⟨p, a'⟩, ⟨⟨p.target, s.config.multisig, [], .multisig out1.toMultisig⟩, .multisig mc mr⟩], ?_, ?_⟩
          · intro x hx
            exact grown_set _ _ _ x (grown_set _ _ _ x hx)
          · rw [fill_set, fill_set]
          · simp only [List.map_cons, List.map_nil, Entry.blind, h2]
      · cases h
    | _ =>
      dsimp only at h ⊢
      split at h
      · cases h
      · rename_i s' a hc
        obtain ⟨a', h1, h2, h3⟩ := plain hc
        rw [h1]
        cases h
        refine ⟨grown_set _ _ _, [⟨p, a'⟩], ?_, ?_⟩
        · dsimp only
          rw [fill_set, h2]
        · simp only [List.map_cons, List.map_nil, Entry.blind, h3]

theorem run_fill {P : Params} {b : Block} (σ : Setup) {accepts : Addr → Bool} (ha : ∀ a, σ a ≠ none → accepts a = false) (n : Nat) :
    ∀ {w w' : World} {ps : List Pending} {es : List Entry}, run P b accepts n w ps = .ok (w', es) →
      Grown w w' ∧ ∃ es', run P b accepts n (fill σ w) ps = .ok (fill σ w', es') ∧ es'.map Entry.blind = es.map Entry.blind := by
  induction n with
  | zero =>
    intro w w' ps es h
    cases ps with
    | nil => simp only [run] at h; cases h; exact ⟨fun _ h => h, [], by simp only [run], rfl⟩
    | cons p rest => simp only [run] at h; cases h
  | succ n ih =>
    intro w w' ps es h
    cases ps with
    | nil => simp only [run] at h; cases h; exact ⟨fun _ h => h, [], by simp only [run], rfl⟩
    | cons p rest =>
      simp only [run] at h ⊢
      split at h
      · rename_i hc
        have hn : w p.target = none := Option.isNone_iff_eq_none.mp hc.1
        have hs : σ p.target = none := by
          by_contra hne
          rw [ha _ hne] at hc
          exact absurd hc.2 (by decide)
        rw [if_pos ⟨by simp only [fill, hn, hs]; rfl, hc.2⟩]
        exact ih h
      · rename_i hc
        split at h
        · cases h
        rename_i w1 es1 out hd
        split at h
        · cases h
        rename_i w2 es2 hr
        cases h
        obtain ⟨g1, es1', hd', e1⟩ := deliver_fill σ hd
        obtain ⟨g2, es2', hr', e2⟩ := ih hr
        have hne : ¬ ((fill σ w p.target).isNone = true ∧ accepts p.target = true) := by
          rintro ⟨h1, h2⟩
          refine hc ⟨?_, h2⟩
          cases hw : w p.target with
          | none => rfl
          | some s => rw [fill_some hw] at h1; exact h1
        rw [if_neg hne, hd']
        dsimp only
        rw [hr']
        exact ⟨fun x hx => g1 x (g2 x hx), _, rfl, by rw [List.map_append, List.map_append, e1, e2]⟩

theorem exec_fill {P : Params} (σ : Setup) {w w' : World} {tx : Tx} {es : List Entry} (hs : σ tx.sender = none)
    (ha : ∀ a, σ a ≠ none → tx.accepts a = false) (h : exec P w tx = .ok (w', es)) :
    Grown w w' ∧ ∃ es', exec P (fill σ w) tx = .ok (fill σ w', es') ∧ es'.map Entry.blind = es.map Entry.blind := by
  unfold exec at h ⊢
  split at h
  · cases h
  rename_i hn
  have hn' : w tx.sender = none := by
    cases hw : w tx.sender with
    | none => rfl
    | some s => rw [hw] at hn; exact absurd rfl hn
  rw [if_neg (by simp only [fill, hn', hs]; decide)]
  exact run_fill σ ha _ h

/-- a history from any storage -/
theorem history_fill {P : Params} (σ : Setup) : ∀ (steps : List Step) (w : World),
    (∀ t, .tx t ∈ steps → σ t.sender = none ∧ ∀ a, σ a ≠ none → t.accepts a = false) →
    (∀ a, w a = none → setupOf steps a = σ a) →
    runCalls (stepExec P) w steps =
      runCalls (exec P) (fill σ w) ((outs (stepExec P) w steps).filterMap (fun e => e.1.tx?)) ∧
    ((outs (stepExec P) w steps).flatMap Prod.snd).map Entry.blind =
      ((outs (exec P) (fill σ w) ((outs (stepExec P) w steps).filterMap (fun e => e.1.tx?))).flatMap Prod.snd).map
        Entry.blind := by
  intro steps
  induction steps with
  | nil =>
    intro w _ hσ
    refine ⟨?_, rfl⟩
    show w = fill σ w
    funext a
    cases hw : w a with
    | some s => rw [fill_some hw]
    | none => simp only [fill, hw, ← hσ a hw, setupOf]; rfl
  | cons st t ih =>
    intro w hsep hσ
    have hsep' : ∀ x, .tx x ∈ t → σ x.sender = none ∧ ∀ a, σ a ≠ none → x.accepts a = false :=
      fun x hx => hsep x (List.mem_cons_of_mem _ hx)
    cases st with
    | found a k =>
      by_cases hw : (w a).isSome = true
      · have hx : stepExec P w (.found a k) = .error () := by simp only [stepExec, hw, if_true]
        simp only [runCalls_cons, outs, hx]
        refine ih w hsep' (fun x hn => ?_)
        rw [← hσ x hn]
        have : x ≠ a := by rintro rfl; rw [hn] at hw; cases hw
        simp only [setupOf, this, if_false]
      · have hn : w a = none := by
          cases h : w a with
          | none => rfl
          | some s => rw [h] at hw; exact absurd rfl hw
        have hx : stepExec P w (.found a k) = .ok (w.set a k.init, []) := by
          simp only [stepExec, hn]; rfl
        have hk : σ a = some k := by rw [← hσ a hn]; simp only [setupOf, if_true]
        have hfill : fill σ (w.set a k.init) = fill σ w := by
          funext x
          simp only [fill, KV.set]
          by_cases hxa : x = a
          · subst hxa; simp [hn, hk]
          · simp [hxa]
        have := ih (w.set a k.init) hsep' (fun x hx => by
          have hxa : x ≠ a := by rintro rfl; simp [KV.set] at hx
          have hwx : w x = none := grown_set _ _ _ x hx
          rw [← hσ x hwx]
          simp only [setupOf, hxa, if_false])
        rw [hfill] at this
        simp only [runCalls_cons, outs, hx]
        simp only [List.filterMap_cons, Step.tx?, List.flatMap_cons, List.nil_append]
        exact this
    | tx tx =>
      cases hx : exec P w tx with
      | error e =>
        have hx' : stepExec P w (.tx tx) = .error e := hx
        simp only [runCalls_cons, outs, hx']
        exact ih w hsep' hσ
      | ok r =>
        obtain ⟨w', es⟩ := r
        have hx' : stepExec P w (.tx tx) = .ok (w', es) := hx
        obtain ⟨hs, ha⟩ := hsep tx (List.mem_cons_self ..)
        obtain ⟨g, es', he, hb⟩ := exec_fill σ hs ha hx
        have := ih w' hsep' (fun x hx => hσ x (g x hx))
        simp only [runCalls_cons, outs, hx']
        simp only [List.filterMap_cons, Step.tx?, runCalls_cons, outs, he, List.flatMap_cons, List.map_append, hb]
        exact ⟨this.1, congrArg _ this.2⟩

end Amp.Chain
