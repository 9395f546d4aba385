import Verif.Wire.SignedSpec
import Verif.Wire.CarryLemmas
import Verif.Chain.SignedLemmas
import Verif.Chain.JoinLemmas

/-!
# Lemmas for C114: signatures as texts
-/

namespace Amp.Chain

variable {P : Params} {setup : Setup} {l l₁ l₂ : List Entry} {w : World} {e : Entry}

theorem blind_multisig {e e' : Entry} (h : e'.blind = e.blind) {c : Multisig.Call} {r : Multisig.Resp} (ha : e.act = .multisig c r) :
    e'.p = e.p ∧ e'.act = .multisig c r := by
  refine ⟨(congrArg Entry.p h : _), ?_⟩
  have h2 : e'.act.blind = e.act.blind := congrArg Entry.act h
  rw [ha] at h2
  cases hx : e'.act with
  | multisig c' r' => rw [hx] at h2; exact h2
  | _ => rw [hx] at h2; simp [Act.blind] at h2

theorem Inv.multisig_call (hi : Inv P setup l w) (hl : l = l₁ ++ e :: l₂) {mc : Multisig.Config}
    (hk : setup e.p.target = some (.multisig mc)) :
    ∃ c r, e.act = .multisig c r ∧ c.sender = e.p.sender ∧ e.p.msg = .multisig c.msg := by
  obtain ⟨_, b, reply, s', hc⟩ := hi.genuine l₁ e l₂ hl
  have hw := (hi.prefix hl).multisig_state hk
  unfold call at hc
  rw [hw] at hc
  cases hm : e.p.msg with
  | multisig m =>
    rw [hm] at hc
    simp only at hc
    split at hc
    · simp at hc
    · rename_i s1 r hx
      simp only [Except.ok.injEq, Prod.mk.injEq] at hc
      exact ⟨_, r, hc.2.symm, rfl, rfl⟩
  | _ => rw [hm] at hc; simp at hc

end Amp.Chain

namespace Amp.Wire

open Amp.Chain (Params Entry Setup)
open Amp.Router (ChainName)

variable {G : Texture} {P : Params}

/-- events of the multisig contract are of their types -/
theorem multisig_event_fits (hG : Sound G) (hX : ∀ b, IsBytes (P.X.keccak b)) (ts : List TextStep)
    (hb : ∀ s ∈ ts, StepInRange s) (ha : TextApart G ts) {M : Addr} {mc : Multisig.Config}
    (hM : textSetup G ts M = some (.multisig mc)) {sid : Nat} {wid : Str} {keys : List (Addr × Multisig.PublicKey)}
    {digest : Encoding.Bytes} {chain : ChainName}
    (h : Chain.AnnouncedAt (Chain.log P (textSetup G ts) (Chain.succeeded P (steps G ts))) M sid wid keys digest chain) :
    SigningFits (.signingStarted sid wid keys digest chain) := by
  have hi := Chain.inv P (textSetup G ts) (Chain.succeeded P (steps G ts))
  obtain ⟨st, hst, hev⟩ := Chain.announcedAt_trace hi hM h
  refine C94_multisig_fits P.C (Prover.workerSetId P.X) mc _ ?_ st hst _ hev
  intro d hd
  obtain ⟨x, hx, hxd⟩ := List.mem_filterMap.mp hd
  obtain ⟨en, hen, ht, rfl⟩ := Chain.mem_actsAt hx
  obtain ⟨l₁, l₂, hl⟩ := List.append_of_mem hen
  obtain ⟨c', r', a1, -, a3⟩ := hi.multisig_call hl (by rw [ht]; exact hM)
  rw [a1] at hxd
  simp only [Chain.Act.multisigCall?, Option.some.injEq] at hxd
  subst hxd
  have hty := deployed_typed hG hX ts hb ha en hen
  rw [a3] at hty
  refine ⟨fun wid msg chain ok hm => ?_, fun ws hm => ?_⟩
  · rw [hm] at hty; exact hty.1
  · rw [hm] at hty; exact fun e he => (hty.signers e he).2

/-- a daemon hands a signature for the session that it read -/
theorem signs_signature (hG : Sound G) {curve : Multisig.PublicKey → Option Encoding.Bytes} {M : Addr} {sid : Nat} {wid : Str}
    {keys : List (Addr × Multisig.PublicKey)} {digest : Encoding.Bytes} {chain : ChainName} {a : Addr} {msg : Ampd.TxMsg}
    (hf : SigningFits (.signingStarted sid wid keys digest chain)) (h : Signs G curve M sid wid keys digest chain a msg) :
    ∃ b, IsBytes b ∧ msg = .submitSignature sid b := by
  obtain ⟨e, E, he, hE, hs⟩ := h
  obtain ⟨e', he', -, hread⟩ := C94_signing (finite := G.finite) hG.faithful curve M sid wid keys digest chain hf
  rw [he] at he'
  cases he'
  unfold Ampd.Signing.handle at hs
  split at hs
  · simp [Ampd.Outcome.ignored] at hs
  · simp [Ampd.Outcome.failed] at hs
  · rename_i s hd
    have hd : Signing.deserSigning G.T curve e.attributes = some s := by
      unfold Ampd.tryFrom at hd
      repeat' split at hd
      all_goals first | (simp at hd; done) | skip
      all_goals simp_all
    have hsame := (hread s).mp hd
    split at hs
    · simp [Ampd.Outcome.ignored] at hs
    · split at hs
      · simp [Ampd.Outcome.ignored] at hs
      · split at hs
        · simp [Ampd.Outcome.failed] at hs
        · rename_i b hb
          refine ⟨b, hE _ _ _ _ hb, ?_⟩
          unfold Ampd.broadcastTx at hs
          split at hs <;> simp at hs <;> simp [hs, hsame.sessionId]

/-- a text for a multisig contract in a transaction that succeeded is one of its calls -/
theorem taken_signature (hG : Sound G) (hX : ∀ b, IsBytes (P.X.keccak b)) (ts : List TextStep) (hb : ∀ s ∈ ts, StepInRange s)
    (ha : TextApart G ts) {M : Addr} {mc : Multisig.Config} (hM : textSetup G ts M = some (.multisig mc)) {a : Addr} {text : Str}
    {height : Nat} (h : TextTaken G P ts a M text height) {sid : Nat} {b : Multisig.Bin}
    (hm : readFor G .multisig text = some (.multisig (.submitSignature sid b))) :
    Chain.SignedAt (Chain.log P (textSetup G ts) (Chain.succeeded P (steps G ts))) M sid a := by
  obtain ⟨us, t, vs, funds, rfl, rfl, hmem, -, ⟨w', es⟩, hx⟩ := h
  have hbu : ∀ s ∈ us, StepInRange s := fun s hs => hb s (List.mem_append_left _ hs)
  have hau := textApart_prefix ha
  have htm : TextStep.tx t ∈ us ++ .tx t :: vs := by simp
  have hin : InRange t := hb _ htm
  have hx' := (exec_after hG hX us hbu hau t hin).mp hx
  have hacc : t.accepts M = false := (ha t htm M (by rw [hM]; simp)).2
  have hrun := hx'
  unfold Chain.exec at hrun
  split at hrun
  · simp at hrun
  · obtain ⟨e, he, hp⟩ := Chain.run_carries _ hrun ⟨t.sender, M, funds, meant G (textSetup G us) M text⟩ (by
      refine List.mem_map.mpr ⟨(M, funds, meant G (textSetup G us) M text), ?_, rfl⟩
      exact List.mem_map.mpr ⟨(M, funds, text), hmem, rfl⟩) hacc
    have hi := Chain.inv P (textSetup G us) (Chain.succeeded P (steps G us) ++ [meaning G (textSetup G us) t])
    have hl := (Chain.log_snoc hx').2
    have het : e.p.target = M := by rw [hp]
    obtain ⟨l₁, l₂, hsplit⟩ := List.append_of_mem he
    obtain ⟨k, hMu⟩ : ∃ k, textSetup G us M = some k := by
      obtain ⟨-, b, reply, s', hc⟩ := hi.genuine (Chain.log P (textSetup G us) (Chain.succeeded P (steps G us)) ++ l₁) e l₂
        (by rw [hl, hsplit]; simp)
      cases hk : textSetup G us M with
      | some k => exact ⟨k, rfl⟩
      | none => simp [Chain.call, Chain.worldOf, het, hk] at hc
    have hkk := textSetup_mono us (.tx t :: vs) hMu
    rw [hM] at hkk
    simp only [Option.some.injEq] at hkk
    subst hkk
    obtain ⟨c, r, a1, a2, a3⟩ := hi.multisig_call (l₁ := Chain.log P (textSetup G us) (Chain.succeeded P (steps G us)) ++ l₁)
      (e := e) (l₂ := l₂) (by rw [hl, hsplit]; simp) (by rw [het]; exact hMu)
    have hmeant : meant G (textSetup G us) M text = .multisig (.submitSignature sid b) := by
      unfold meant
      rw [hMu]
      change (match readFor G .multisig text with | some m => m | none => noise .multisig) = _
      rw [hm]
    rw [hp] at a2 a3
    dsimp only at a2 a3
    rw [hmeant] at a3
    simp only [Chain.Msg.multisig.injEq] at a3
    have hlog : e ∈ textDeployedLog G P (us ++ .tx t :: vs) := by
      unfold textDeployedLog
      rw [outs_append, outs_cons_ok _ (show stepText G P (runCalls (stepText G P) Chain.nothing us) (.tx t) = .ok (w', es) from hx)]
      simp [he]
    have hbl : e.blind ∈ (Chain.log P (textSetup G (us ++ .tx t :: vs))
        (Chain.succeeded P (steps G (us ++ .tx t :: vs)))).map Entry.blind := by
      rw [← (C105_history (P := P) hG hX _ hb ha).2.1]
      exact List.mem_map_of_mem hlog
    obtain ⟨e', he', hbe⟩ := List.mem_map.mp hbl
    obtain ⟨b1, b2⟩ := Chain.blind_multisig hbe a1
    exact ⟨e', he', c, r, b, by rw [b1]; exact het, b2, a2, a3.symm⟩

end Amp.Wire
