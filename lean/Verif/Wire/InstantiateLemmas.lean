import Verif.Wire.InstantiateSpec
import Verif.Wire.StoredReads
import Verif.Wire.MsgProps
import Verif.Chain.RecordProps
import Verif.Prover.SetProps

/-!
# Lemmas for C104
-/

namespace Amp.Wire

open Amp.Router (ChainName Lowering)
open Amp.Chain (Setup Store Kind Act)

variable {L : Lowering} {T : Texts}

/-! ### Majorities -/

theorem ofPair_majority {n d : Nat} {t : Std.MajorityThreshold} (h : Std.MajorityThreshold.ofPair n d = .ok t) (hd : d ≤ u64Max) :
    IsMajority t ∧ t.num = n ∧ t.den = d := by
  unfold Std.MajorityThreshold.ofPair at h
  split at h
  · simp at h
  · rename_i t' ht
    unfold Std.Threshold.tryFrom at ht
    unfold Std.MajorityThreshold.tryFrom at h
    split at ht
    · simp at ht
    split at ht
    · simp at ht
    split at ht
    · simp at ht
    simp only [Except.ok.injEq] at ht
    subst ht
    split at h
    · simp at h
    · simp only [Except.ok.injEq] at h
      subst h
      dsimp only at *
      exact ⟨⟨by dsimp only; omega, by dsimp only; omega, by dsimp only; omega⟩, rfl, rfl⟩

theorem majority_ofPair {t : Std.MajorityThreshold} (h : IsMajority t) : Std.MajorityThreshold.ofPair t.num t.den = .ok t := by
  have h1 := h.half
  have h2 := h.whole
  unfold Std.MajorityThreshold.ofPair
  rw [Std.Threshold.tryFrom, if_neg (by omega), if_neg (by omega), if_neg (by omega)]
  simp only [Std.MajorityThreshold.tryFrom]
  rw [if_neg (by omega)]

theorem asMajority_json {t : Std.MajorityThreshold} (h : IsMajority t) : asMajority (jsonMajority t) = some t := by
  have h2 := h.whole
  have h3 := h.range
  rw [asMajority, jsonMajority, asPair_some (asUint_jsonUint (by omega)) (asUint_jsonUint h3)]
  simp only [majority_ofPair h]

theorem asMajority_typed {j : Json} {t : Std.MajorityThreshold} (h : asMajority j = some t) : IsMajority t := by
  unfold asMajority at h
  split at h
  · rename_i n d hp
    split at h
    · rename_i t' ht
      simp only [Option.some.injEq] at h
      subst h
      obtain ⟨-, b, hb⟩ := asPair_elim hp
      exact (ofPair_majority ht (asUint_le hb)).1
    · simp at h
  · simp at h

/-! ### Reading what was written -/

theorem asThree_some {α β γ : Type} {n m o : Str} (hnm : n ≠ m) (hno : n ≠ o) (hmo : m ≠ o) {f : Json → Option α}
    {g : Json → Option β} {h : Json → Option γ} {a b c : Json} {x : α} {y : β} {z : γ} (hf : f a = some x) (hg : g b = some y)
    (hh : h c = some z) : asThree n m o f g h (.obj [(n, a), (m, b), (o, c)]) = some (x, y, z) := by
  simp [asThree, structOf, distinct, Amp.Ampd.lastWith, hf, hg, hh, hnm, hno, hmo, Ne.symm hnm, Ne.symm hno, Ne.symm hmo]

theorem asThree_elim {α β γ : Type} {n m o : Str} {f : Json → Option α} {g : Json → Option β} {h : Json → Option γ} {j : Json}
    {p : α × β × γ} (hp : asThree n m o f g h j = some p) :
    (∃ a, f a = some p.1) ∧ (∃ b, g b = some p.2.1) ∧ ∃ c, h c = some p.2.2 := by
  unfold asThree at hp
  split at hp
  · split at hp
    · rename_i h1 h2 h3
      simp only [Option.some.injEq] at hp
      subst hp
      exact ⟨⟨_, h1⟩, ⟨_, h2⟩, ⟨_, h3⟩⟩
    · simp at hp
  · simp at hp

theorem text_ne (hT : T.Faithful) (he : T.parse [] = none) (a : Addr) : T.text a ≠ [] := by
  intro h
  have := hT.parse_text a
  rw [h, he] at this
  simp at this

theorem asTextAddr_str (hT : T.Faithful) (he : T.parse [] = none) (a : Addr) : asTextAddr T (.str (T.text a)) = some a := by
  rw [asTextAddr, asText_str (text_ne hT he a), Option.bind_some, hT.parse_text]

theorem asVerifierFields_json (hT : T.Faithful) {r : Json → Option Addr} {c : VV.Config}
    (hr : r (.str (T.text c.serviceRegistry)) = some c.serviceRegistry) (h : (Conf.verifier c).Typed L) :
    asVerifierFields L T r (some [some (.str (T.text c.serviceRegistry)), some (.str c.serviceName), some (.str c.sourceGateway),
      some (jsonMajority c.threshold), some (.nat c.blockExpiry), some (.nat c.confirmationHeight), some (.str c.sourceChain),
      some (.str (T.text c.rewards))]) = some c := by
  obtain ⟨h1, h2, h3, h4, h5, h6⟩ := h
  simp only [asVerifierFields]
  rw [hr, asText_str h1, asText_str h2, asMajority_json h3, asNat_nat h4, asNat_nat h5, asName_str h6, asAddr_str hT]

theorem asEncoder_json (e : Encoding.Encoder) : asEncoder (.str (encoderName e)) = some e := by
  cases e <;> rfl

theorem asKeyType_json' (k : Multisig.KeyType) : asKeyType (.str (keyTypeName k)) = some k := by
  cases k <;> rfl

theorem asProverFields_json (hT : T.Faithful) {admin : Addr} {c : Prover.Config} {sv : Str} {kt : Multisig.KeyType}
    (h : (Conf.prover admin c sv kt).Typed L) :
    asProverFields L T (some [some (.str (T.text admin)), some (.str (T.text c.gateway)), some (.str (T.text c.multisig)),
      some (.str (T.text c.serviceRegistry)), some (.str (T.text c.votingVerifier)), some (jsonUint c.destinationChainId),
      some (jsonMajority c.signingThreshold), some (.str sv), some (.str c.chainName), some (.nat c.diffThreshold),
      some (.str (encoderName c.encoder)), some (.str (keyTypeName kt))]) = some (admin, c, sv, kt) := by
  obtain ⟨h1, h2, h3, h4⟩ := h
  simp only [asProverFields]
  rw [asAddr_str hT, asAddr_str hT, asAddr_str hT, asAddr_str hT, asAddr_str hT, asUint_jsonUint h1, asMajority_json h2,
    asName_str h3, asNat_nat h4, asEncoder_json, asKeyType_json']
  rfl

theorem asConf_json (hT : T.Faithful) {c : Conf} (h : c.Typed L) : asConf L T c.party (jsonConf T c) = some c := by
  cases c with
  | verifier c => exact congrArg (Option.map Conf.verifier) (asVerifierFields_json hT (asAddr_str hT _) h)
  | gateway c => exact congrArg (Option.map _) (two_some (by decide) (asAddr_str hT _) (asAddr_str hT _))
  | router c =>
    exact congrArg (Option.map _) (asThree_some (by decide) (by decide) (by decide) (asAddr_str hT _) (asAddr_str hT _)
      (asAddr_str hT _))
  | nexus c => exact congrArg (Option.map _) (two_some (by decide) (asAddr_str hT _) (asAddr_str hT _))
  | registry g => exact congrArg (Option.map _) (one_some _ (asAddr_str hT _))
  | rewards c => exact congrArg (Option.map _) (two_some (by decide) (asAddr_str hT _) (g := asStr) rfl)
  | multisig c =>
    exact congrArg (Option.map _) (asThree_some (by decide) (by decide) (by decide) (asAddr_str hT _) (asAddr_str hT _)
      (asNat_nat h))
  | prover admin c sv kt => exact congrArg (Option.map _) (asProverFields_json hT h)

theorem asOrder_json (hT : T.Faithful) (he : T.parse [] = none) {o : Order} (h : o.Typed L) :
    asOrder L T o.conf.party (jsonOrder T o) = some o := by
  cases o with
  | verifier c => exact congrArg (Option.map Order.verifier) (asVerifierFields_json hT (asTextAddr_str hT he _) h.1)
  | gateway c => exact congrArg (Option.map _) (two_some (by decide) (asAddr_str hT _) (asAddr_str hT _))
  | router c =>
    exact congrArg (Option.map _) (asThree_some (by decide) (by decide) (by decide) (asAddr_str hT _) (asAddr_str hT _)
      (asAddr_str hT _))
  | nexus c => exact congrArg (Option.map _) (two_some (by decide) (asAddr_str hT _) (asAddr_str hT _))
  | registry g => exact congrArg (Option.map _) (one_some _ (asAddr_str hT _))
  | rewards c p =>
    exact congrArg (Option.map _) (asThree_some (by decide) (by decide) (by decide) (asAddr_str hT _) (g := asStr) rfl
      (asParams_json (h.2 c p rfl)))
  | multisig c =>
    exact congrArg (Option.map _) (asThree_some (by decide) (by decide) (by decide) (asAddr_str hT _) (asAddr_str hT _)
      (asNat_nat h.1))
  | prover admin c sv kt => exact congrArg (Option.map _) (asProverFields_json hT h.1)

theorem fits_majority (t : Std.MajorityThreshold) {d : Nat} (hd : 1 ≤ d) : (jsonMajority t).Fits (d + 1) := by
  rw [jsonMajority, Json.Fits]
  simp only [Json.FitsAll]
  exact ⟨by omega, fits_uint _ _, fits_uint _ _, trivial⟩

theorem fits_conf {c : Conf} (h : c.Typed L) : (jsonConf T c).Fits 128 := by
  cases c with
  | verifier c =>
    obtain ⟨-, -, -, h4, h5, -⟩ := h
    rw [jsonConf, Json.Fits]
    simp only [Json.FitsFields, Json.FitsField]
    exact ⟨by omega, fits_str _ _, fits_str _ _, fits_str _ _, fits_majority _ (by omega), fits_nat h4 (Nat.le_refl _) _,
      fits_nat h5 (Nat.le_refl _) _, fits_str _ _, fits_str _ _, trivial⟩
  | gateway c => exact fits_two (d := 127) (fits_str _ _) (fits_str _ _) (by omega)
  | router c =>
    rw [jsonConf, Json.Fits]
    simp only [Json.FitsFields, Json.FitsField]
    exact ⟨by omega, fits_str _ _, fits_str _ _, fits_str _ _, trivial⟩
  | nexus c => exact fits_two (d := 127) (fits_str _ _) (fits_str _ _) (by omega)
  | registry g => exact fits_one (d := 127) (fits_str _ _) (by omega)
  | rewards c => exact fits_two (d := 127) (fits_str _ _) (fits_str _ _) (by omega)
  | multisig c =>
    rw [jsonConf, Json.Fits]
    simp only [Json.FitsFields, Json.FitsField]
    exact ⟨by omega, fits_str _ _, fits_str _ _, fits_nat h (Nat.le_refl _) _, trivial⟩
  | prover admin c sv kt =>
    obtain ⟨-, -, -, h4⟩ := h
    rw [jsonConf, Json.Fits]
    simp only [Json.FitsFields, Json.FitsField]
    exact ⟨by omega, fits_str _ _, fits_str _ _, fits_str _ _, fits_str _ _, fits_str _ _, fits_uint _ _,
      fits_majority _ (by omega), fits_str _ _, fits_str _ _, fits_nat h4 (by decide) _, fits_str _ _, fits_str _ _, trivial⟩

theorem fits_order {o : Order} (h : o.Typed L) : (jsonOrder T o).Fits 128 := by
  cases o with
  | verifier c =>
    obtain ⟨-, -, -, h4, h5, -⟩ := h.1
    rw [jsonOrder, Json.Fits]
    simp only [Json.FitsFields, Json.FitsField]
    exact ⟨by omega, fits_str _ _, fits_str _ _, fits_str _ _, fits_majority _ (by omega), fits_nat h4 (Nat.le_refl _) _,
      fits_nat h5 (Nat.le_refl _) _, fits_str _ _, fits_str _ _, trivial⟩
  | gateway c => exact fits_two (d := 127) (fits_str _ _) (fits_str _ _) (by omega)
  | router c =>
    rw [jsonOrder, Json.Fits]
    simp only [Json.FitsFields, Json.FitsField]
    exact ⟨by omega, fits_str _ _, fits_str _ _, fits_str _ _, trivial⟩
  | nexus c => exact fits_two (d := 127) (fits_str _ _) (fits_str _ _) (by omega)
  | registry g => exact fits_one (d := 127) (fits_str _ _) (by omega)
  | rewards c p =>
    rw [jsonOrder, Json.Fits]
    simp only [Json.FitsFields, Json.FitsField]
    refine ⟨by omega, fits_str _ _, fits_str _ _, ?_, trivial⟩
    simp [jsonParams, Json.Fits, Json.FitsFields, Json.FitsField, Json.FitsAll, jsonUint]
  | multisig c =>
    rw [jsonOrder, Json.Fits]
    simp only [Json.FitsFields, Json.FitsField]
    exact ⟨by omega, fits_str _ _, fits_str _ _, fits_nat h.1 (Nat.le_refl _) _, trivial⟩
  | prover admin c sv kt =>
    obtain ⟨-, -, -, h4⟩ := h.1
    rw [jsonOrder, Json.Fits]
    simp only [Json.FitsFields, Json.FitsField]
    exact ⟨by omega, fits_str _ _, fits_str _ _, fits_str _ _, fits_str _ _, fits_str _ _, fits_uint _ _,
      fits_majority _ (by omega), fits_str _ _, fits_str _ _, fits_nat h4 (by decide) _, fits_str _ _, fits_str _ _, trivial⟩

/-! ### What is read has its type -/

theorem asVerifierFields_typed {r : Json → Option Addr} {l : Option (List (Option Json))} {c : VV.Config}
    (h : asVerifierFields L T r l = some c) : (Conf.verifier c).Typed L := by
  unfold asVerifierFields at h
  split at h
  · split at h
    · rename_i h1 h2 h3 h4 h5 h6 h7 h8
      simp only [Option.some.injEq] at h
      subst h
      exact ⟨asText_ne h2, asText_ne h3, asMajority_typed h4, asNat_le h5, asNat_le h6, asName_valid h7⟩
    · simp at h
  · simp at h

theorem asProverFields_typed {l : Option (List (Option Json))} {p : Addr × Prover.Config × Str × Multisig.KeyType}
    (h : asProverFields L T l = some p) : (Conf.prover p.1 p.2.1 p.2.2.1 p.2.2.2).Typed L := by
  unfold asProverFields at h
  split at h
  · split at h
    · rename_i h1 h2 h3 h4 h5 h6
      split at h
      · rename_i h7 h8 h9 h10 h11 h12
        simp only [Option.some.injEq] at h
        subst h
        exact ⟨asUint_le h6, asMajority_typed h7, asName_valid h9, asNat_le h10⟩
      · simp at h
    · simp at h
  · simp at h

theorem asOrder_typed {p : Party} {j : Json} {o : Order} (h : asOrder L T p j = some o) : o.Typed L ∧ o.conf.party = p := by
  cases p with
  | verifier =>
    obtain ⟨c, hc, rfl⟩ := Option.map_eq_some_iff.mp h
    exact ⟨⟨asVerifierFields_typed hc, by intro _ _ e; cases e⟩, rfl⟩
  | gateway =>
    obtain ⟨c, hc, rfl⟩ := Option.map_eq_some_iff.mp h
    exact ⟨⟨trivial, by intro _ _ e; cases e⟩, rfl⟩
  | router =>
    obtain ⟨c, hc, rfl⟩ := Option.map_eq_some_iff.mp h
    exact ⟨⟨trivial, by intro _ _ e; cases e⟩, rfl⟩
  | nexus =>
    obtain ⟨c, hc, rfl⟩ := Option.map_eq_some_iff.mp h
    exact ⟨⟨trivial, by intro _ _ e; cases e⟩, rfl⟩
  | registry =>
    obtain ⟨c, hc, rfl⟩ := Option.map_eq_some_iff.mp h
    exact ⟨⟨trivial, by intro _ _ e; cases e⟩, rfl⟩
  | rewards =>
    obtain ⟨c, hc, rfl⟩ := Option.map_eq_some_iff.mp h
    refine ⟨⟨trivial, ?_⟩, rfl⟩
    intro c' p e
    cases e
    obtain ⟨-, -, x, hx⟩ := asThree_elim hc
    exact asParams_typed hx
  | multisig =>
    obtain ⟨c, hc, rfl⟩ := Option.map_eq_some_iff.mp h
    obtain ⟨-, -, x, hx⟩ := asThree_elim hc
    exact ⟨⟨asNat_le hx, by intro _ _ e; cases e⟩, rfl⟩
  | prover =>
    obtain ⟨c, hc, rfl⟩ := Option.map_eq_some_iff.mp h
    exact ⟨⟨asProverFields_typed hc, by intro _ _ e; cases e⟩, rfl⟩

/-! ### Configurations do not change -/

theorem confIn_replay (P : Chain.Params) (o : Order) (h : Nat) (l : List Act) :
    confIn o.admin (Chain.replay P (o.kind h) l) = o.conf := by
  cases o with
  | verifier c =>
    exact congrArg Conf.verifier (runCalls_inv (VV.exec P.H) (P := fun s => s.config = c)
      (fun s c' s' r hs hx => by rw [VV.exec_config hx, hs]) _ rfl _)
  | gateway c => exact congrArg Conf.gateway (Gateway.config_reachable c _)
  | router c => exact congrArg Conf.router (Router.config_reachable c _)
  | nexus c =>
    exact congrArg Conf.nexus (runCalls_inv Nexus.exec (P := fun s => s.config = c)
      (fun s c' s' r hs hx => by rw [Nexus.exec_config hx, hs]) _ rfl _)
  | registry g =>
    exact congrArg Conf.registry (runCalls_inv Registry.exec (P := fun s => s.governance = g)
      (fun s c' s' r hs hx => by rw [(Registry.services_step hx).1, hs]) _ rfl _)
  | rewards c p => exact congrArg Conf.rewards (Chain.rewards_config c p h _)
  | multisig c => exact congrArg Conf.multisig (Chain.multisig_config P.C _ c _)
  | prover a c sv kt => exact congrArg (fun c => Conf.prover a c sv kt) (Prover.config_stateAfter P.X c _)

/-! ### The next transaction -/

theorem history_parties {G : Texture} {P : Chain.Params} (hG : Sound G) (hX : ∀ b, IsBytes (P.X.keccak b)) {σ : Addr → Option Party}
    {ts : List TextTx} {txs : List Chain.Tx} (h : List.Forall₂ (TxSays G σ) ts txs) :
    ∀ {w : Chain.World}, Parties w σ → WorldTyped G.L w → (∀ t ∈ ts, InRange t) →
      Parties (runCalls (execText G P) w ts) σ := by
  induction h with
  | nil => intro w hσ _ _; exact hσ
  | cons h1 h2 ih =>
    rename_i t tx ts txs
    intro w hσ hw hb
    have hb' : ∀ t ∈ ts, InRange t := fun x hx => hb x (List.mem_cons_of_mem _ hx)
    have hs := exec_same (P := P) hG hX hσ hw (hb t (List.mem_cons_self ..)) h1
    simp only [runCalls_cons]
    cases hq : execText G P w t with
    | error e => exact ih hσ hw hb'
    | ok x =>
      cases hp : Chain.exec P w tx with
      | error e' => rw [hq, hp] at hs; exact hs.elim
      | ok y =>
        obtain ⟨w1, es⟩ := x
        obtain ⟨w1', es'⟩ := y
        rw [hq, hp] at hs
        exact ih hs.2.2.1 hs.2.2.2.1 hb'

/-- the next transaction does what it says -/
theorem next_same {G : Texture} {P : Chain.Params} {setup : Setup} (hG : Sound G) (hX : ∀ b, IsBytes (P.X.keccak b))
    (hs : SetupTyped G.L setup) (ts : List TextTx) (hb : ∀ t ∈ ts, InRange t) (t : TextTx) (ht : InRange t) :
    execText G P (textWorldAfter G P setup ts) t =
      Chain.exec P (Chain.worldAfter P setup (ts.map (meaning G setup))) (meaning G setup t) := by
  have hf := forall₂_map ts (fun t ht => says_meaning (G := G) (setup := setup) t (hb t ht))
  have h1 := history_parties (P := P) hG hX hf (parties_genesis setup) (typed_genesis hs) hb
  have h2 := history_typed (P := P) hG hX hf (parties_genesis setup) (typed_genesis hs) hb
  have h3 := exec_same (P := P) hG hX h1 h2 ht (says_meaning (G := G) (setup := setup) t ht)
  rw [← (C95_history (P := P) hG hX hs ts hb).1]
  unfold textWorldAfter
  cases hq : execText G P (runCalls (execText G P) (Chain.genesis setup) ts) t with
  | error e =>
    cases hp : Chain.exec P (runCalls (execText G P) (Chain.genesis setup) ts) (meaning G setup t) with
    | error e' => rfl
    | ok y => rw [hq, hp] at h3; exact h3.elim
  | ok x =>
    cases hp : Chain.exec P (runCalls (execText G P) (Chain.genesis setup) ts) (meaning G setup t) with
    | error e' => rw [hq, hp] at h3; exact h3.elim
    | ok y =>
      obtain ⟨w1, es⟩ := x
      obtain ⟨w1', es'⟩ := y
      rw [hq, hp] at h3
      rw [h3.1, h3.2.1]

end Amp.Wire
