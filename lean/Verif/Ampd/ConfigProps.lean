import Verif.Ampd.Config
import Verif.Ampd.Wire
import Verif.Ampd.SigningProps
import Verif.Ampd.EvmProps
import Verif.Ampd.SuiProps
import Verif.Ampd.StallProps
import Mathlib.Data.List.Nodup
import Mathlib.Data.List.Infix

/-!
# C87: the handlers a worker configures do not get in each other's way
-/

namespace Amp.Ampd

open Amp.Encoding (Bytes)

/-! ## Specification -/

/-- two entries of the configuration that ask for the same handler: same kind and, for EVM chains, same name -/
def SameHandler : HandlerCfg → HandlerCfg → Prop
  | .evmMsg _ n, .evmMsg _ m => n = m
  | .evmWorkerSet _ n, .evmWorkerSet _ m => n = m
  | .multisig _, .multisig _ => True
  | .suiMsg _, .suiMsg _ => True
  | .suiWorkerSet _, .suiWorkerSet _ => True
  | _, _ => False

/-- the names of chains are as they are read from the configuration file -/
def AsRead (cfgs : List HandlerCfg) : Prop :=
  ∀ c ∈ cfgs, ∀ n, (c.evmMsgName = some n ∨ c.evmWorkerSetName = some n) → ∃ s, n = Evm.Chain.read s

/-- an EVM chain called `sui` next to a Sui handler of the same kind -/
def SuiTwice (cfgs : List HandlerCfg) : Prop :=
  (∃ a b, .evmMsg a (.other "sui".toList) ∈ cfgs ∧ .suiMsg b ∈ cfgs) ∨
  (∃ a b, .evmWorkerSet a (.other "sui".toList) ∈ cfgs ∧ .suiWorkerSet b ∈ cfgs)

/-- chains of the same kind of handler at the same contract have names that differ in more than capitals, and no
contract serves both a Sui handler and an EVM handler of the same kind -/
structure Careful (cfgs : List HandlerCfg) : Prop where
  msg : ∀ a n m, .evmMsg a n ∈ cfgs → .evmMsg a m ∈ cfgs → n ≠ m →
    Evm.eqIgnoreAsciiCase (Evm.Chain.show n) (Evm.Chain.show m) = false
  workerSet : ∀ a n m, .evmWorkerSet a n ∈ cfgs → .evmWorkerSet a m ∈ cfgs → n ≠ m →
    Evm.eqIgnoreAsciiCase (Evm.Chain.show n) (Evm.Chain.show m) = false
  suiMsg : ∀ a n, .evmMsg a n ∈ cfgs → .suiMsg a ∉ cfgs
  suiWorkerSet : ∀ a n, .evmWorkerSet a n ∈ cfgs → .suiWorkerSet a ∉ cfgs

/-- what the daemon is given: an event of a voting verifier or of a multisig contract, with the address of the
contract -/
abbrev Any := Addr × (VV.Event ⊕ Multisig.Event)

/-- an event as published -/
def announcedAny (contract : Addr) : VV.Event ⊕ Multisig.Event → Abci Any
  | .inl ev => ⟨eventType ev, (contract, .inl ev)⟩
  | .inr ev => ⟨Signing.eventType ev, (contract, .inr ev)⟩

/-- the tools of the daemon, which reads the events of both kinds of contract as in `Wire.lean` and
`SigningProps.lean` -/
def tools {D J : Type} (L : Router.Lowering) (decodeLog : D → Option Evm.GatewayEvent) (P : Sui.Json J) (R : Reader)
    (RS : Signing.Reader) : Tools Any D J where
  L := L
  decodeLog := decodeLog
  P := P
  evmMessages := fun v => match v.2 with | .inl ev => Evm.readMessagesPoll L R (v.1, ev) | .inr _ => none
  evmWorkerSet := fun v => match v.2 with | .inl ev => Evm.readWorkerSetPoll L R (v.1, ev) | .inr _ => none
  suiMessages := fun v => match v.2 with | .inl ev => Sui.readMessagesPoll L R (v.1, ev) | .inr _ => none
  suiWorkerSet := fun v => match v.2 with | .inl ev => Sui.readWorkerSetPoll R (v.1, ev) | .inr _ => none
  signing := fun v => match v.2 with | .inl _ => none | .inr ev => Signing.readSigning RS (v.1, ev)

/-! ## What configurations are accepted -/

theorem allUnique_iff {α : Type} [DecidableEq α] (l : List α) : allUnique l = true ↔ l.Nodup := by
  induction l with
  | nil => simp [allUnique]
  | cons a t ih => simp [allUnique, ih]

theorem pairwise_filterMap {α β : Type} (f : α → Option β) (l : List α) :
    (l.filterMap f).Nodup ↔ l.Pairwise (fun a b => ∀ x y, f a = some x → f b = some y → x ≠ y) := by
  rw [List.Nodup, List.pairwise_filterMap]
  constructor
  · intro h
    exact h.imp (fun {a b} hab x y hx hy => hab x hx y hy)
  · intro h
    exact h.imp (fun {a b} hab x hx y hy => hab x y hx hy)

theorem filter_le_one {α : Type} (p : α → Bool) (l : List α) :
    (l.filter p).length ≤ 1 ↔ l.Pairwise (fun a b => ¬ (p a = true ∧ p b = true)) := by
  induction l with
  | nil => simp
  | cons a t ih =>
    rw [List.pairwise_cons, ← ih]
    cases h : p a with
    | false => simp [h]
    | true =>
      rw [List.filter_cons_of_pos h, List.length_cons]
      constructor
      · intro hle
        have h0 : (t.filter p) = [] := List.length_eq_zero_iff.mp (by omega)
        refine ⟨fun b hb hab => ?_, by rw [h0]; simp⟩
        have : b ∈ t.filter p := List.mem_filter.mpr ⟨hb, hab.2⟩
        rw [h0] at this
        exact absurd this (by simp)
      · rintro ⟨hn, -⟩
        have h0 : (t.filter p) = [] := by
          rw [List.filter_eq_nil_iff]
          intro b hb hpb
          exact hn b hb ⟨rfl, hpb⟩
        rw [h0]
        simp

/-- **C87.** A configuration is accepted iff no two of its entries ask for the same handler: one verifier of messages
and one of worker sets for every name of an EVM chain, one signer, one verifier of each kind for Sui. -/
theorem C87_accepts (cfgs : List HandlerCfg) :
    validate cfgs = .ok () ↔ cfgs.Pairwise (fun a b => ¬ SameHandler a b) := by
  have key : validate cfgs = .ok () ↔
      ((cfgs.filterMap HandlerCfg.evmMsgName).Nodup ∧ (cfgs.filterMap HandlerCfg.evmWorkerSetName).Nodup ∧
      (cfgs.filter HandlerCfg.isMultisig).length ≤ 1 ∧ (cfgs.filter HandlerCfg.isSuiMsg).length ≤ 1 ∧
      (cfgs.filter HandlerCfg.isSuiWorkerSet).length ≤ 1) := by
    rw [← allUnique_iff, ← allUnique_iff]
    unfold validate
    constructor
    · intro h
      split_ifs at h with h1 h2 h3 h4 h5
      exact ⟨by simpa using h1, by simpa using h2, by omega, by omega, by omega⟩
    · rintro ⟨h1, h2, h3, h4, h5⟩
      rw [if_neg (by simp [h1]), if_neg (by simp [h2]), if_neg (by omega), if_neg (by omega), if_neg (by omega)]
  rw [key, pairwise_filterMap, pairwise_filterMap, filter_le_one, filter_le_one, filter_le_one,
    ← List.pairwise_and_iff, ← List.pairwise_and_iff, ← List.pairwise_and_iff, ← List.pairwise_and_iff]
  constructor
  · intro h
    refine h.imp (fun {a b} hab => ?_)
    obtain ⟨h1, h2, h3, h4, h5⟩ := hab
    cases a <;> cases b <;>
      simp_all [SameHandler, HandlerCfg.evmMsgName, HandlerCfg.evmWorkerSetName, HandlerCfg.isMultisig,
        HandlerCfg.isSuiMsg, HandlerCfg.isSuiWorkerSet]
  · intro h
    refine h.imp (fun {a b} hab => ?_)
    cases a <;> cases b <;>
      simp_all [SameHandler, HandlerCfg.evmMsgName, HandlerCfg.evmWorkerSetName, HandlerCfg.isMultisig,
        HandlerCfg.isSuiMsg, HandlerCfg.isSuiWorkerSet]

/-! ## Labels -/

theorem show_inj {s t : Str} (h : (Evm.Chain.read s).show = (Evm.Chain.read t).show) :
    Evm.Chain.read s = Evm.Chain.read t := by
  unfold Evm.Chain.read at h ⊢
  split_ifs at h ⊢ with h1 h2 h2
  · rfl
  · exact absurd h.symm h2
  · exact absurd h h1
  · exact congrArg Evm.Chain.other h

theorem read_sui {s : Str} (h : (Evm.Chain.read s).show = "sui".toList) :
    Evm.Chain.read s = .other "sui".toList := by
  have h2 : "sui".toList = (Evm.Chain.read "sui".toList).show := by decide
  exact (show_inj (h.trans h2)).trans (by decide)

theorem no_common {X Y a b : Str} (h : X ++ a = Y ++ b) (hl : a.length ≤ b.length) (hn : ¬ a <:+ b) : False :=
  hn (List.suffix_of_suffix_length_le ⟨X, h⟩ ⟨Y, rfl⟩ hl)

theorem sui_msg_label : HandlerCfg.label (.suiMsg x) = "sui".toList ++ "-msg-verifier".toList := by
  show "sui-msg-verifier".toList = _; decide

theorem sui_ws_label : HandlerCfg.label (.suiWorkerSet x) = "sui".toList ++ "-worker-set-verifier".toList := by
  show "sui-worker-set-verifier".toList = _; decide

theorem multisig_label : HandlerCfg.label (.multisig x) = "multisig".toList ++ "-signer".toList := by
  show "multisig-signer".toList = _; decide

theorem sfx1 : ¬ "-msg-verifier".toList <:+ "-worker-set-verifier".toList := by decide
theorem sfx2 : ¬ "-signer".toList <:+ "-worker-set-verifier".toList := by decide
theorem sfx3 : ¬ "-signer".toList <:+ "-msg-verifier".toList := by decide
theorem len1 : "-msg-verifier".toList.length ≤ "-worker-set-verifier".toList.length := by decide
theorem len2 : "-signer".toList.length ≤ "-worker-set-verifier".toList.length := by decide
theorem len3 : "-signer".toList.length ≤ "-msg-verifier".toList.length := by decide

/-- handlers with the same label are the same handler, or are the pair of handlers of chains called `sui` -/
theorem same_label {cfgs : List HandlerCfg} (hr : AsRead cfgs) {c d : HandlerCfg} (hc : c ∈ cfgs) (hd : d ∈ cfgs)
    (h : c.label = d.label) : SameHandler c d ∨ SuiTwice cfgs := by
  cases c with
  | evmMsg a n =>
    obtain ⟨s, hs⟩ := hr _ hc n (Or.inl rfl)
    cases d with
    | evmMsg b m =>
      obtain ⟨t, ht⟩ := hr _ hd m (Or.inl rfl)
      left
      show n = m
      have h' := List.append_cancel_right h
      rw [hs, ht] at h' ⊢
      exact show_inj h'
    | evmWorkerSet b m => exact (no_common h len1 sfx1).elim
    | multisig b => rw [multisig_label] at h; exact (no_common h.symm len3 sfx3).elim
    | suiMsg b =>
      rw [sui_msg_label] at h
      have h' := List.append_cancel_right h
      rw [hs] at h' hc
      rw [read_sui h'] at hc
      exact Or.inr (Or.inl ⟨a, b, hc, hd⟩)
    | suiWorkerSet b => rw [sui_ws_label] at h; exact (no_common h len1 sfx1).elim
  | evmWorkerSet a n =>
    obtain ⟨s, hs⟩ := hr _ hc n (Or.inr rfl)
    cases d with
    | evmMsg b m => exact (no_common h.symm len1 sfx1).elim
    | evmWorkerSet b m =>
      obtain ⟨t, ht⟩ := hr _ hd m (Or.inr rfl)
      left
      show n = m
      have h' := List.append_cancel_right h
      rw [hs, ht] at h' ⊢
      exact show_inj h'
    | multisig b => rw [multisig_label] at h; exact (no_common h.symm len2 sfx2).elim
    | suiMsg b => rw [sui_msg_label] at h; exact (no_common h.symm len1 sfx1).elim
    | suiWorkerSet b =>
      rw [sui_ws_label] at h
      have h' := List.append_cancel_right h
      rw [hs] at h' hc
      rw [read_sui h'] at hc
      exact Or.inr (Or.inr ⟨a, b, hc, hd⟩)
  | multisig a =>
    rw [multisig_label] at h
    cases d with
    | evmMsg b m => exact (no_common h len3 sfx3).elim
    | evmWorkerSet b m => exact (no_common h len2 sfx2).elim
    | multisig b => exact Or.inl trivial
    | suiMsg b => rw [sui_msg_label] at h; exact (no_common h len3 sfx3).elim
    | suiWorkerSet b => rw [sui_ws_label] at h; exact (no_common h len2 sfx2).elim
  | suiMsg a =>
    rw [sui_msg_label] at h
    cases d with
    | evmMsg b m =>
      obtain ⟨t, ht⟩ := hr _ hd m (Or.inl rfl)
      have h' := List.append_cancel_right h
      rw [ht] at h' hd
      rw [read_sui h'.symm] at hd
      exact Or.inr (Or.inl ⟨b, a, hd, hc⟩)
    | evmWorkerSet b m => exact (no_common h len1 sfx1).elim
    | multisig b => rw [multisig_label] at h; exact (no_common h.symm len3 sfx3).elim
    | suiMsg b => exact Or.inl trivial
    | suiWorkerSet b => rw [sui_ws_label] at h; exact (no_common h len1 sfx1).elim
  | suiWorkerSet a =>
    rw [sui_ws_label] at h
    cases d with
    | evmMsg b m => exact (no_common h.symm len1 sfx1).elim
    | evmWorkerSet b m =>
      obtain ⟨t, ht⟩ := hr _ hd m (Or.inr rfl)
      have h' := List.append_cancel_right h
      rw [ht] at h' hd
      rw [read_sui h'.symm] at hd
      exact Or.inr (Or.inr ⟨b, a, hd, hc⟩)
    | multisig b => rw [multisig_label] at h; exact (no_common h.symm len2 sfx2).elim
    | suiMsg b => rw [sui_msg_label] at h; exact (no_common h.symm len1 sfx1).elim
    | suiWorkerSet b => exact Or.inl trivial

theorem not_same_of_kind {cfgs : List HandlerCfg} {c d : HandlerCfg} (hc : c ∈ cfgs) (hd : d ∈ cfgs) (hne : c ≠ d)
    (h : c.label = d.label) : ¬ (cfgs.map HandlerCfg.label).Nodup := by
  intro hn
  exact hne (List.inj_on_of_nodup_map hn hc hd h)

/-- **C87.** In an accepted configuration no two handlers record their progress under the same label, except exactly
when an EVM chain called `sui` is configured next to the Sui handler of the same kind. -/
theorem C87_labels (cfgs : List HandlerCfg) (hr : AsRead cfgs) (hv : validate cfgs = .ok ()) :
    (cfgs.map HandlerCfg.label).Nodup ↔ ¬ SuiTwice cfgs := by
  constructor
  · intro hn hs
    rcases hs with ⟨a, b, h1, h2⟩ | ⟨a, b, h1, h2⟩
    · exact not_same_of_kind h1 h2 (by simp) sui_msg_label.symm hn
    · exact not_same_of_kind h1 h2 (by simp) sui_ws_label.symm hn
  · intro hs
    have hp := (C87_accepts cfgs).mp hv
    rw [List.Nodup, List.pairwise_map]
    exact List.Pairwise.imp_of_mem (fun {c d} hc hd hcd hl => (same_label hr hc hd hl).elim hcd hs) hp

/-! ## Who is listened to -/

theorem configure_any (m : List (Str × Nat)) (i : Nat) (cfgs : List HandlerCfg) (l : Str) (k : Nat)
    (hk : k < i) :
    (l, k) ∈ configure m i cfgs ↔ (l, k) ∈ m ∧ l ∉ cfgs.map HandlerCfg.label := by
  induction cfgs generalizing m i with
  | nil => simp [configure]
  | cons c t ih =>
    rw [configure, ih _ _ (by omega), registerEvent, List.map_cons, List.mem_cons]
    simp only [List.mem_append, List.mem_filter, List.mem_singleton, Prod.mk.injEq, ne_eq, decide_eq_true_eq]
    have hki : k ≠ i := by omega
    constructor
    · rintro ⟨⟨h1, h2⟩ | ⟨h1, h2⟩, h3⟩
      · exact ⟨h1, fun h => h.elim h2 h3⟩
      · exact absurd h2 hki
    · rintro ⟨h1, h2⟩
      exact ⟨Or.inl ⟨h1, fun h => h2 (Or.inl h)⟩, fun h => h2 (Or.inr h)⟩

theorem configure_at (m : List (Str × Nat)) (i : Nat) (pre post : List HandlerCfg) (c : HandlerCfg)
    (hm : ∀ e ∈ m, e.2 < i) (l : Str) :
    (l, i + pre.length) ∈ configure m i (pre ++ c :: post) ↔ l = c.label ∧ c.label ∉ post.map HandlerCfg.label := by
  induction pre generalizing m i with
  | nil =>
    show (l, i) ∈ configure (registerEvent m c.label i) (i + 1) post ↔ _
    rw [configure_any _ _ _ _ _ (Nat.lt_succ_self i)]
    simp only [registerEvent, List.mem_append, List.mem_filter, List.mem_singleton, Prod.mk.injEq, and_true]
    constructor
    · rintro ⟨⟨h1, -⟩ | h1, h2⟩
      · exact absurd (hm _ h1) (Nat.lt_irrefl _)
      · exact ⟨h1, h1 ▸ h2⟩
    · rintro ⟨h1, h2⟩
      exact ⟨Or.inr h1, h1 ▸ h2⟩
  | cons d t ih =>
    rw [List.cons_append, configure, List.length_cons, show i + (t.length + 1) = (i + 1) + t.length by omega]
    refine ih _ _ (fun e he => ?_)
    rcases List.mem_append.mp he with h | h
    · exact Nat.lt_succ_of_lt (hm _ (List.mem_filter.mp h).1)
    · rw [List.mem_singleton.mp h]
      exact Nat.lt_succ_self i

/-- **C87.** The state updater listens to a handler iff no handler configured after it has the same label. -/
theorem C87_listened (pre post : List HandlerCfg) (c : HandlerCfg) :
    listened (pre ++ c :: post) pre.length = true ↔ ∀ d ∈ post, d.label ≠ c.label := by
  have h := fun l => configure_at [] 0 pre post c (by simp) l
  rw [listened, List.any_eq_true]
  constructor
  · rintro ⟨⟨l, k⟩, hk, he⟩ d hd hl
    have hkk : k = pre.length := by simpa using he
    subst hkk
    have := ((h l).mp (by simpa using hk)).2
    exact this (List.mem_map.mpr ⟨d, hd, hl⟩)
  · intro hn
    refine ⟨(c.label, pre.length), ?_, by simp⟩
    have := (h c.label).mpr ⟨rfl, fun hm => ?_⟩
    · simpa using this
    · obtain ⟨d, hd, hl⟩ := List.mem_map.mp hm
      exact hn d hd hl

theorem split_at {α : Type} {l : List α} {i : Nat} {a : α} (h : l[i]? = some a) :
    ∃ pre post, l = pre ++ a :: post ∧ pre.length = i := by
  obtain ⟨hi, ha⟩ := List.getElem?_eq_some_iff.mp h
  refine ⟨l.take i, l.drop (i + 1), ?_, by rw [List.length_take]; omega⟩
  rw [← ha, List.getElem_cons_drop, List.take_append_drop]

/-- **C87.** In an accepted configuration the state updater listens to every handler, unless an EVM chain is called
`sui`. -/
theorem C87_all_listened (cfgs : List HandlerCfg) (hr : AsRead cfgs) (hv : validate cfgs = .ok ())
    (hs : ¬ SuiTwice cfgs) (i : Nat) (hi : i < cfgs.length) : listened cfgs i = true := by
  obtain ⟨c, hc⟩ : ∃ c, cfgs[i]? = some c := ⟨_, List.getElem?_eq_getElem hi⟩
  obtain ⟨pre, post, he, hl⟩ := split_at hc
  have hn := (C87_labels cfgs hr hv).mpr hs
  rw [he] at hn ⊢
  rw [← hl, C87_listened]
  intro d hd heq
  rw [List.map_append, List.map_cons, List.nodup_append] at hn
  exact (List.nodup_cons.mp hn.2.1).1 (List.mem_map.mpr ⟨d, hd, heq⟩)

/-- Once nobody listens to a handler, it stops at the first end of a block: it is given no event after it, and no
block is recorded as completed by it. -/
theorem unheard {A : Type} (items : List (Item A)) (rs : List HandleReply) (h : ∀ r ∈ rs, r.notified = false) :
    (consume items rs).2 = [] ∧
    ∀ pre e post, (consume items rs).1 = pre ++ e :: post → ∀ b, .blockEnd b ∉ pre := by
  induction items generalizing rs with
  | nil => exact ⟨by simp [consume], fun pre e post he => by simp [consume] at he⟩
  | cons x t ih =>
    cases rs with
    | nil => exact ⟨by simp [consume], fun pre e post he => by simp [consume] at he⟩
    | cons r rs =>
      have hr := h r (by simp)
      have ih := ih rs (fun r' hr' => h r' (by simp [hr']))
      cases x with
      | lagged => exact ⟨by simp [consume], fun pre e post he => by simp [consume] at he⟩
      | ok ev =>
        have one : ∀ (pre : List (Event A)) e post, [ev] = pre ++ e :: post → ∀ b, .blockEnd b ∉ pre := by
          intro pre e post he b hb
          cases pre with
          | nil => simp at hb
          | cons p q => simp at he
        cases hh : r.handled with
        | false => simp only [consume, hh]; exact ⟨rfl, one⟩
        | true =>
          have more : ∀ (_ : ∀ b, ev ≠ .blockEnd b) (pre : List (Event A)) e post,
              ev :: (consume t rs).1 = pre ++ e :: post → ∀ b, .blockEnd b ∉ pre := by
            intro hne pre e post he b hb
            cases pre with
            | nil => simp at hb
            | cons p q =>
              rw [List.cons_append, List.cons.injEq] at he
              rcases List.mem_cons.mp hb with rfl | hb
              · exact hne b he.1
              · exact ih.2 q e post he.2 b hb
          cases ev with
          | blockEnd b => simp only [consume, hh, hr]; exact ⟨rfl, one⟩
          | blockBegin b => simp only [consume, hh]; exact ⟨ih.1, more (by simp)⟩
          | abci a => simp only [consume, hh]; exact ⟨ih.1, more (by simp)⟩

/-- **C87, counterexample.** There is an accepted configuration, with names as read from the file, one of whose
handlers nobody listens to: whatever happens, it stops at the end of the first block it handles, and none of its
blocks is recorded. -/
theorem C87_counterexample :
    ∃ (cfgs : List HandlerCfg) (i : Nat), AsRead cfgs ∧ validate cfgs = .ok () ∧ i < cfgs.length ∧
      listened cfgs i = false ∧
      ∀ {A : Type} (items : List (Item A)) (rs : List HandleReply),
        (∀ r ∈ rs, r.notified = true → listened cfgs i = true) →
        (consume items rs).2 = [] ∧
        ∀ (pre : List (Event A)) e post, (consume items rs).1 = pre ++ e :: post → ∀ b, .blockEnd b ∉ pre := by
  refine ⟨[.evmMsg 7 (.read "sui".toList), .suiMsg 8], 0, ?_, by decide, by decide, by decide,
    fun items rs h => unheard items rs (fun r hr => ?_)⟩
  · intro c hc n hn
    rcases List.mem_cons.mp hc with rfl | hc
    · rcases hn with hn | hn
      · exact ⟨_, (Option.some.inj hn).symm⟩
      · exact absurd hn (by simp [HandlerCfg.evmWorkerSetName])
    · rw [List.mem_singleton.mp hc] at hn
      rcases hn with hn | hn
      · exact absurd hn (by simp [HandlerCfg.evmMsgName])
      · exact absurd hn (by simp [HandlerCfg.evmWorkerSetName])
  · cases hb : r.notified with
    | false => rfl
    | true => exact absurd (h r hr hb) (by decide)

/-! ## Answers -/

/-- the type of the events a handler listens to -/
def listensTo : HandlerCfg → Str
  | .evmMsg .. => "wasm-messages_poll_started".toList
  | .evmWorkerSet .. => "wasm-worker_set_poll_started".toList
  | .multisig .. => "wasm-signing_started".toList
  | .suiMsg .. => "wasm-messages_poll_started".toList
  | .suiWorkerSet .. => "wasm-worker_set_poll_started".toList

variable {D J : Type} {L : Router.Lowering} {decodeLog : D → Option Evm.GatewayEvent} {P : Sui.Json J} {R : Reader}
  {RS : Signing.Reader}

theorem evmPoll_contract {α : Type} {x : Addr} {pm : VV.PollMeta} {c : Option α} {p : Evm.PollStarted α}
    (h : Evm.readPoll L R x pm c = some p) : p.contract = x := by
  unfold Evm.readPoll at h
  split at h
  · simp at h
  · split at h
    · simp at h
    · split at h
      · simp at h
      · simp only [Option.some.injEq] at h; rw [← h]

theorem suiPoll_contract {α : Type} {x : Addr} {pm : VV.PollMeta} {c : Option α} {p : Sui.PollStarted α}
    (h : Sui.readPoll R x pm c = some p) : p.contract = x := by
  unfold Sui.readPoll at h
  split at h
  · simp at h
  · split at h
    · simp at h
    · simp only [Option.some.injEq] at h; rw [← h]

theorem evmMessages_contract {v : Any} {p : Evm.PollStarted (List Evm.Message)}
    (h : (tools L decodeLog P R RS).evmMessages v = some p) : p.contract = v.1 := by
  obtain ⟨x, ev⟩ := v
  cases ev with
  | inr ev => simp [tools] at h
  | inl ev => cases ev <;> simp only [tools, Evm.readMessagesPoll] at h <;>
      first | exact evmPoll_contract h | simp at h

theorem evmWorkerSet_contract {v : Any} {p : Evm.PollStarted Evm.WorkerSet}
    (h : (tools L decodeLog P R RS).evmWorkerSet v = some p) : p.contract = v.1 := by
  obtain ⟨x, ev⟩ := v
  cases ev with
  | inr ev => simp [tools] at h
  | inl ev => cases ev <;> simp only [tools, Evm.readWorkerSetPoll] at h <;>
      first | exact evmPoll_contract h | simp at h

theorem suiMessages_contract {v : Any} {p : Sui.PollStarted (List Sui.Message)}
    (h : (tools L decodeLog P R RS).suiMessages v = some p) : p.contract = v.1 := by
  obtain ⟨x, ev⟩ := v
  cases ev with
  | inr ev => simp [tools] at h
  | inl ev => cases ev <;> simp only [tools, Sui.readMessagesPoll] at h <;>
      first | exact suiPoll_contract h | simp at h

theorem suiWorkerSet_contract {v : Any} {p : Sui.PollStarted Sui.WorkerSet}
    (h : (tools L decodeLog P R RS).suiWorkerSet v = some p) : p.contract = v.1 := by
  obtain ⟨x, ev⟩ := v
  cases ev with
  | inr ev => simp [tools] at h
  | inl ev => cases ev <;> simp only [tools, Sui.readWorkerSetPoll] at h <;>
      first | exact suiPoll_contract h | simp at h

theorem signing_contract {v : Any} {p : Signing.SigningStarted}
    (h : (tools L decodeLog P R RS).signing v = some p) : p.contract = v.1 := by
  obtain ⟨x, ev⟩ := v
  cases ev with
  | inl ev => simp [tools] at h
  | inr ev =>
    obtain ⟨_, _, _, _, _, _, _, _, _, _, hc, _⟩ := Signing.readSigning_some h
    exact hc

theorem signing_sent {V : Type} {deser : V → Option Signing.SigningStarted} {H : Signing.Handler} {E : Signing.Env}
    {e : Event (Abci V)} {t : ExecTx} (h : t ∈ (Signing.handle deser H E e).sent) :
    ∃ a s, e = .abci a ∧ a.type = "wasm-signing_started".toList ∧ deser a.attributes = some s ∧
      s.contract = H.multisig := by
  unfold Signing.handle at h
  cases ht : tryFrom "wasm-signing_started".toList deser e with
  | mismatch => rw [ht] at h; simp [Outcome.ignored] at h
  | malformed => rw [ht] at h; simp [Outcome.failed] at h
  | ok s =>
    rw [ht] at h
    obtain ⟨a, h1, h2, h3⟩ := Amp.Ampd.tryFrom_ok.mp ht
    refine ⟨a, s, h1, h2, h3, ?_⟩
    simp only at h
    split at h
    · simp [Outcome.ignored] at h
    · rename_i hx
      exact (Classical.not_not.mp hx).symm

/-- a handler sends at most one transaction -/
theorem sent_le_one {V : Type} (T : Tools V D J) (worker : Addr) (S : Surroundings D J) (c : HandlerCfg)
    (e : Event (Abci V)) : (c.handle T worker S e).sent.length ≤ 1 := by
  cases c <;> simp only [HandlerCfg.handle]
  · unfold Evm.handleMessages
    repeat' split
    all_goals simp [Outcome.ignored, Outcome.failed, broadcastTx]
  · unfold Evm.handleWorkerSet
    repeat' split
    all_goals simp [Outcome.ignored, Outcome.failed, broadcastTx]
  · unfold Signing.handle
    repeat' split
    all_goals simp [Outcome.ignored, Outcome.failed, broadcastTx]
  · unfold Sui.handleMessages
    repeat' split
    all_goals simp [Outcome.ignored, Outcome.failed, broadcastTx]
  · unfold Sui.handleWorkerSet
    repeat' split
    all_goals simp [Outcome.ignored, Outcome.failed, broadcastTx]

/-- the name of a chain that polls about messages, or worker sets, are about -/
def polledChain (T : Tools Any D J) (c : HandlerCfg) (v : Any) : Option Str :=
  match c with
  | .evmMsg .. => (T.evmMessages v).map (·.sourceChain)
  | .evmWorkerSet .. => (T.evmWorkerSet v).map (·.sourceChain)
  | _ => none

/-- when a handler sends something, the event is of the type it listens to, of the contract it is configured with,
and about its chain -/
theorem sends_only {worker : Addr} {S : Surroundings D J} {c : HandlerCfg} {x : Addr}
    {ev : VV.Event ⊕ Multisig.Event} {t : ExecTx}
    (h : t ∈ (c.handle (tools L decodeLog P R RS) worker S (.abci (announcedAny x ev))).sent) :
    (announcedAny x ev).type = listensTo c ∧ x = c.contract ∧
    ∀ n, (c.evmMsgName = some n ∨ c.evmWorkerSetName = some n) → ∃ chain,
      polledChain (tools L decodeLog P R RS) c (x, ev) = some chain ∧
      chain.map Char.toLower = n.show.map Char.toLower := by
  have hat : (announcedAny x ev).attributes = (x, ev) := by cases ev <;> rfl
  cases c with
  | evmMsg a n =>
    obtain ⟨p, f, ⟨⟨b, hb, hty, hd⟩, hc, hch, -, -⟩, -, -⟩ := Evm.handleMessages_sent h
    cases hb
    rw [hat] at hd
    refine ⟨hty, (evmMessages_contract hd).symm.trans hc, fun m hm => ?_⟩
    rcases hm with hm | hm
    · cases hm
      exact ⟨p.sourceChain, by simp only [polledChain, hd, Option.map_some], hch⟩
    · simp [HandlerCfg.evmWorkerSetName] at hm
  | evmWorkerSet a n =>
    obtain ⟨p, f, v, ⟨⟨b, hb, hty, hd⟩, hc, hch, -, -⟩, -⟩ := Evm.handleWorkerSet_sent h
    cases hb
    rw [hat] at hd
    refine ⟨hty, (evmWorkerSet_contract hd).symm.trans hc, fun m hm => ?_⟩
    rcases hm with hm | hm
    · simp [HandlerCfg.evmMsgName] at hm
    · cases hm
      exact ⟨p.sourceChain, by simp only [polledChain, hd, Option.map_some], hch⟩
  | multisig a =>
    obtain ⟨b, s, hb, hty, hd, hc⟩ := signing_sent h
    cases hb
    rw [hat] at hd
    exact ⟨hty, (signing_contract hd).symm.trans hc,
      fun m hm => by simp [HandlerCfg.evmMsgName, HandlerCfg.evmWorkerSetName] at hm⟩
  | suiMsg a =>
    obtain ⟨p, f, ⟨⟨b, hb, hty, hd⟩, hc, -, -⟩, -⟩ := Sui.handleMessages_sent h
    cases hb
    rw [hat] at hd
    exact ⟨hty, (suiMessages_contract hd).symm.trans hc,
      fun m hm => by simp [HandlerCfg.evmMsgName, HandlerCfg.evmWorkerSetName] at hm⟩
  | suiWorkerSet a =>
    obtain ⟨p, f, v, ⟨⟨b, hb, hty, hd⟩, hc, -, -⟩, -⟩ := Sui.handleWorkerSet_sent h
    cases hb
    rw [hat] at hd
    exact ⟨hty, (suiWorkerSet_contract hd).symm.trans hc,
      fun m hm => by simp [HandlerCfg.evmMsgName, HandlerCfg.evmWorkerSetName] at hm⟩

theorem ty12 : "wasm-messages_poll_started".toList ≠ "wasm-worker_set_poll_started".toList := by decide
theorem ty13 : "wasm-messages_poll_started".toList ≠ "wasm-signing_started".toList := by decide
theorem ty23 : "wasm-worker_set_poll_started".toList ≠ "wasm-signing_started".toList := by decide

/-- of two handlers of a careful configuration that are not the same, at most one answers -/
theorem not_both {cfgs : List HandlerCfg} (hcf : Careful cfgs) {c d : HandlerCfg} (hc : c ∈ cfgs) (hd : d ∈ cfgs)
    (hne : ¬ SameHandler c d) (worker : Addr) (S S' : Surroundings D J) (x : Addr) (ev : VV.Event ⊕ Multisig.Event) :
    (c.handle (tools L decodeLog P R RS) worker S (.abci (announcedAny x ev))).sent = [] ∨
    (d.handle (tools L decodeLog P R RS) worker S' (.abci (announcedAny x ev))).sent = [] := by
  by_contra hcon
  obtain ⟨h1, h2⟩ := not_or.mp hcon
  obtain ⟨t1, ht1⟩ := List.exists_mem_of_ne_nil _ h1
  obtain ⟨t2, ht2⟩ := List.exists_mem_of_ne_nil _ h2
  obtain ⟨a1, a2, a3⟩ := sends_only ht1
  obtain ⟨b1, b2, b3⟩ := sends_only ht2
  have hty : listensTo c = listensTo d := a1.symm.trans b1
  have hco : c.contract = d.contract := a2.symm.trans b2
  cases c with
  | evmMsg a n =>
    cases d with
    | evmMsg b m =>
      obtain ⟨ch, h3, h4⟩ := a3 n (Or.inl rfl)
      obtain ⟨ch', h3', h4'⟩ := b3 m (Or.inl rfl)
      have : ch = ch' := Option.some.inj (h3.symm.trans h3')
      subst this
      cases (show a = b from hco)
      have := hcf.msg a n m hc hd hne
      simp only [Evm.eqIgnoreAsciiCase, decide_eq_false_iff_not] at this
      exact this (h4.symm.trans h4')
    | evmWorkerSet b m => exact ty12 hty
    | multisig b => exact ty13 hty
    | suiMsg b => cases (show a = b from hco); exact hcf.suiMsg a n hc hd
    | suiWorkerSet b => exact ty12 hty
  | evmWorkerSet a n =>
    cases d with
    | evmMsg b m => exact ty12 hty.symm
    | evmWorkerSet b m =>
      obtain ⟨ch, h3, h4⟩ := a3 n (Or.inr rfl)
      obtain ⟨ch', h3', h4'⟩ := b3 m (Or.inr rfl)
      have : ch = ch' := Option.some.inj (h3.symm.trans h3')
      subst this
      cases (show a = b from hco)
      have := hcf.workerSet a n m hc hd hne
      simp only [Evm.eqIgnoreAsciiCase, decide_eq_false_iff_not] at this
      exact this (h4.symm.trans h4')
    | multisig b => exact ty23 hty
    | suiMsg b => exact ty12 hty.symm
    | suiWorkerSet b => cases (show a = b from hco); exact hcf.suiWorkerSet a n hc hd
  | multisig a =>
    cases d with
    | evmMsg b m => exact ty13 hty.symm
    | evmWorkerSet b m => exact ty23 hty.symm
    | multisig b => exact hne trivial
    | suiMsg b => exact ty13 hty.symm
    | suiWorkerSet b => exact ty23 hty.symm
  | suiMsg a =>
    cases d with
    | evmMsg b m => cases (show a = b from hco); exact hcf.suiMsg a m hd hc
    | evmWorkerSet b m => exact ty12 hty
    | multisig b => exact ty13 hty
    | suiMsg b => exact hne trivial
    | suiWorkerSet b => exact ty12 hty
  | suiWorkerSet a =>
    cases d with
    | evmMsg b m => exact ty12 hty.symm
    | evmWorkerSet b m => cases (show a = b from hco); exact hcf.suiWorkerSet a m hd hc
    | multisig b => exact ty23 hty
    | suiMsg b => exact ty12 hty.symm
    | suiWorkerSet b => exact hne trivial

theorem sentUpon_of {V : Type} {T : Tools V D J} {worker : Addr} {S : Nat → Surroundings D J} {e : Event (Abci V)}
    (cfgs : List HandlerCfg) (k : Nat)
    (h : cfgs.Pairwise (fun c d : HandlerCfg => ∀ i j, (c.handle T worker (S i) e).sent = [] ∨ (d.handle T worker (S j) e).sent = [])) :
    (sentUpon T worker S e k cfgs = [] ∧
      ∀ (i : Nat) (c : HandlerCfg), cfgs[i]? = some c → (c.handle T worker (S (k + i)) e).sent = []) ∨
    ∃ (i : Nat) (c : HandlerCfg), cfgs[i]? = some c ∧ sentUpon T worker S e k cfgs = (c.handle T worker (S (k + i)) e).sent ∧
      (c.handle T worker (S (k + i)) e).sent ≠ [] ∧
      ∀ (j : Nat) (d : HandlerCfg), cfgs[j]? = some d → j ≠ i → (d.handle T worker (S (k + j)) e).sent = [] := by
  induction cfgs generalizing k with
  | nil => exact Or.inl ⟨rfl, by simp⟩
  | cons c t ih =>
    rw [List.pairwise_cons] at h
    by_cases hs : (c.handle T worker (S k) e).sent = []
    · rcases ih (k + 1) h.2 with ⟨h1, h2⟩ | ⟨i, d, h1, h2, h3, h4⟩
      · left
        refine ⟨by rw [sentUpon, hs, h1, List.append_nil], fun i d hi => ?_⟩
        cases i with
        | zero => simp only [List.getElem?_cons_zero, Option.some.injEq] at hi; subst hi; exact hs
        | succ i =>
          rw [List.getElem?_cons_succ] at hi
          rw [show k + (i + 1) = k + 1 + i by omega]
          exact h2 i d hi
      · right
        refine ⟨i + 1, d, by rw [List.getElem?_cons_succ]; exact h1, ?_, ?_, fun j d' hj hji => ?_⟩
        · rw [sentUpon, hs, h2, List.nil_append, show k + (i + 1) = k + 1 + i by omega]
        · rw [show k + (i + 1) = k + 1 + i by omega]; exact h3
        · cases j with
          | zero => simp only [List.getElem?_cons_zero, Option.some.injEq] at hj; subst hj; exact hs
          | succ j =>
            rw [List.getElem?_cons_succ] at hj
            rw [show k + (j + 1) = k + 1 + j by omega]
            exact h4 j d' hj (by omega)
    · right
      have hrest : ∀ (j : Nat) (d : HandlerCfg), t[j]? = some d → (d.handle T worker (S (k + 1 + j)) e).sent = [] := fun j d hj =>
        (h.1 d (List.mem_of_getElem? hj) k (k + 1 + j)).resolve_left hs
      have hnil : sentUpon T worker S e (k + 1) t = [] := by
        rcases ih (k + 1) h.2 with ⟨h1, -⟩ | ⟨i, d, h1, h2, h3, -⟩
        · exact h1
        · exact absurd (hrest i d h1) h3
      refine ⟨0, c, rfl, by rw [sentUpon, hnil, List.append_nil]; rfl, hs, fun j d hj hj0 => ?_⟩
      cases j with
      | zero => exact absurd rfl hj0
      | succ j =>
        rw [List.getElem?_cons_succ] at hj
        rw [show k + (j + 1) = k + 1 + j by omega]
        exact hrest j d hj

/-- **C87.** With an accepted configuration in which names of chains differ in more than capitals and no contract
serves Sui and an EVM chain at once, the daemon answers an event with at most one transaction: that of the one handler
concerned, unaffected by the others. -/
theorem C87_one_answer_partial (cfgs : List HandlerCfg) (hv : validate cfgs = .ok ()) (hc : Careful cfgs)
    (L : Router.Lowering) (decodeLog : D → Option Evm.GatewayEvent) (P : Sui.Json J) (R : Reader)
    (RS : Signing.Reader) (worker : Addr) (S : Nat → Surroundings D J) (x : Addr) (ev : VV.Event ⊕ Multisig.Event) :
    (sentUpon (tools L decodeLog P R RS) worker S (.abci (announcedAny x ev)) 0 cfgs).length ≤ 1 ∧
    ∀ (i : Nat) (c : HandlerCfg), cfgs[i]? = some c →
      (c.handle (tools L decodeLog P R RS) worker (S i) (.abci (announcedAny x ev))).sent ≠ [] →
      sentUpon (tools L decodeLog P R RS) worker S (.abci (announcedAny x ev)) 0 cfgs =
        (c.handle (tools L decodeLog P R RS) worker (S i) (.abci (announcedAny x ev))).sent := by
  have hp := List.Pairwise.imp_of_mem (fun {c d} h1 h2 hcd => (fun i j =>
    not_both (L := L) (decodeLog := decodeLog) (P := P) (R := R) (RS := RS) hc h1 h2 hcd worker (S i) (S j) x ev))
    ((C87_accepts cfgs).mp hv)
  rcases sentUpon_of cfgs 0 hp with ⟨h1, h2⟩ | ⟨i, c, h1, h2, h3, h4⟩
  · refine ⟨by rw [h1]; simp, fun i c hi hn => absurd ?_ hn⟩
    have := h2 i c hi
    rwa [Nat.zero_add] at this
  · refine ⟨by rw [h2]; exact sent_le_one _ _ _ _ _, fun j d hj hn => ?_⟩
    by_cases hji : j = i
    · subst hji
      rw [h1] at hj
      cases hj
      rw [h2, Nat.zero_add]
    · have := h4 j d hj hji
      rw [Nat.zero_add] at this
      exact absurd this hn

/-! ## Finality -/

/-- **C87.** A chain is asked for its finalized block iff it is called exactly `Ethereum` in the configuration; every
other spelling is taken to be a chain whose blocks become final with confirmations, although polls about Ethereum
reach the handler whatever the capitals. -/
theorem C87_finality (name : Str) (n : Evm.Node D) (conf : Nat) :
    Evm.finalizedHeight (.read name) n conf =
      (if name = "Ethereum".toList then Evm.ethereumHeight n else Evm.powHeight n conf) ∧
    ∀ chain, (Evm.Chain.read name).is chain = true ↔ chain.map Char.toLower = name.map Char.toLower := by
  have hs : (Evm.Chain.read name).show = name := by
    unfold Evm.Chain.read
    split
    · rename_i h; rw [h]; rfl
    · rfl
  constructor
  · unfold Evm.Chain.read
    split <;> rfl
  · intro chain
    rw [Evm.Chain.is, hs, Evm.eqIgnoreAsciiCase, decide_eq_true_eq]
    exact eq_comm

/-- whose name a handler sends in, and to whom -/
theorem sent_by {worker : Addr} {S : Surroundings D J} {c : HandlerCfg} {x : Addr}
    {ev : VV.Event ⊕ Multisig.Event} {t : ExecTx}
    (h : t ∈ (c.handle (tools L decodeLog P R RS) worker S (.abci (announcedAny x ev))).sent) :
    t.sender = worker ∧ t.contract = c.contract := by
  cases c with
  | evmMsg a n =>
    obtain ⟨p, f, -, -, rfl⟩ := Evm.handleMessages_sent h
    exact ⟨rfl, rfl⟩
  | evmWorkerSet a n =>
    obtain ⟨p, f, v, -, -, -, rfl⟩ := Evm.handleWorkerSet_sent h
    exact ⟨rfl, rfl⟩
  | multisig a =>
    simp only [HandlerCfg.handle, Signing.handle] at h
    repeat' split at h
    all_goals first
      | (simp [Outcome.ignored, Outcome.failed] at h; done)
      | (simp only [broadcastTx, List.mem_singleton] at h; subst h; exact ⟨rfl, rfl⟩)
  | suiMsg a =>
    obtain ⟨p, f, -, -, rfl⟩ := Sui.handleMessages_sent h
    exact ⟨rfl, rfl⟩
  | suiWorkerSet a =>
    obtain ⟨p, f, v, -, -, -, rfl⟩ := Sui.handleWorkerSet_sent h
    exact ⟨rfl, rfl⟩

/-- **C87.** Whatever the configuration, all answers are sent in the name of the worker, to the contract that announced
the event, and this is one that some handler is configured with. -/
theorem C87_own_name (cfgs : List HandlerCfg) (L : Router.Lowering) (decodeLog : D → Option Evm.GatewayEvent)
    (P : Sui.Json J) (R : Reader) (RS : Signing.Reader) (worker : Addr) (S : Nat → Surroundings D J) (x : Addr)
    (ev : VV.Event ⊕ Multisig.Event) (k : Nat) (t : ExecTx)
    (h : t ∈ sentUpon (tools L decodeLog P R RS) worker S (.abci (announcedAny x ev)) k cfgs) :
    t.sender = worker ∧ t.contract = x ∧ ∃ c ∈ cfgs, c.contract = x := by
  induction cfgs generalizing k with
  | nil => simp [sentUpon] at h
  | cons c rest ih =>
    rw [sentUpon, List.mem_append] at h
    rcases h with h | h
    · have hx := (sends_only h).2.1
      obtain ⟨h1, h2⟩ := sent_by h
      exact ⟨h1, h2.trans hx.symm, c, List.mem_cons_self, hx.symm⟩
    · obtain ⟨h1, h2, d, hd, hx⟩ := ih (k + 1) h
      exact ⟨h1, h2, d, List.mem_cons_of_mem _ hd, hx⟩


/-! ## Concrete cases -/

/-- two EVM chains with both kinds of handlers at two verifiers, Sui, and the signer -/
def exCfgs : List HandlerCfg :=
  [.evmMsg 10 (.read "Ethereum".toList), .evmMsg 11 (.read "polygon".toList),
   .evmWorkerSet 10 (.read "Ethereum".toList), .multisig 20, .suiMsg 12, .suiWorkerSet 12]

example : validate exCfgs = .ok () := by decide

example : validate (exCfgs ++ [.evmMsg 15 (.read "polygon".toList)]) = .error .evmMsg := by decide

example : validate (exCfgs ++ [.multisig 21]) = .error .multisig := by decide

theorem exAsRead : AsRead exCfgs := by
  intro c hc n hn
  simp only [exCfgs, List.mem_cons, List.not_mem_nil, or_false] at hc
  rcases hc with rfl | rfl | rfl | rfl | rfl | rfl <;>
    simp only [HandlerCfg.evmMsgName, HandlerCfg.evmWorkerSetName, Option.some.injEq, reduceCtorEq, or_false,
      false_or] at hn <;> exact ⟨_, hn.symm⟩

theorem exNotTwice : ¬ SuiTwice exCfgs := by
  have h := (C87_labels exCfgs exAsRead (by decide)).mp (by decide)
  exact h

example : ∀ i < exCfgs.length, listened exCfgs i = true := by decide

theorem exCareful : Careful exCfgs := by
  constructor
  · intro a n m h1 h2 hne
    simp only [exCfgs, List.mem_cons, HandlerCfg.evmMsg.injEq, reduceCtorEq, List.not_mem_nil, or_false,
      false_or] at h1 h2
    rcases h1 with ⟨rfl, rfl⟩ | ⟨rfl, rfl⟩ <;> rcases h2 with ⟨h, rfl⟩ | ⟨h, rfl⟩ <;>
      first | exact absurd rfl hne | exact absurd h (by decide)
  · intro a n m h1 h2 hne
    simp only [exCfgs, List.mem_cons, HandlerCfg.evmWorkerSet.injEq, reduceCtorEq, List.not_mem_nil, or_false,
      false_or] at h1 h2
    exact absurd (h1.2.trans h2.2.symm) hne
  · intro a n h1 h2
    simp only [exCfgs, List.mem_cons, HandlerCfg.evmMsg.injEq, HandlerCfg.suiMsg.injEq, reduceCtorEq,
      List.not_mem_nil, or_false, false_or] at h1 h2
    rcases h1 with ⟨rfl, -⟩ | ⟨rfl, -⟩ <;> exact absurd h2 (by decide)
  · intro a n h1 h2
    simp only [exCfgs, List.mem_cons, HandlerCfg.evmWorkerSet.injEq, HandlerCfg.suiWorkerSet.injEq, reduceCtorEq,
      List.not_mem_nil, or_false, false_or] at h1 h2
    rw [h1.1] at h2
    exact absurd h2 (by decide)

/-- the daemon of the examples: nothing is found on any chain -/
def exTools : Tools Any Unit Unit :=
  tools Router.asciiLower (fun _ => none) ⟨fun _ => none, fun _ => none⟩ exReader Signing.exReader

def exSurroundings : Nat → Surroundings Unit Unit := fun _ =>
  ⟨⟨5, ⟨some (some 90), some 100, fun _ => some none⟩, true, id⟩, ⟨5, ⟨fun _ => none, fun _ => none⟩, true, id⟩,
    Signing.exEnv⟩

/-- a poll of the verifier at 11 about a message from Polygon -/
def exStarted : VV.Event :=
  .messagesPollStarted [⟨"0xab".toList, 1, "dest".toList, "ethereum".toList, "0xcd".toList, List.replicate 32 1⟩]
    ⟨3, "polygon".toList, "0x99".toList, 10, 50, [1, 2]⟩

example : sentUpon exTools 1 exSurroundings (.abci (announcedAny 11 (.inl exStarted))) 0 exCfgs =
    [⟨1, 11, .vote 3 [.notFound]⟩] := by decide +kernel

/-- **C87, counterexample.** A configuration in which a chain is written in two ways is accepted, and the daemon
answers a poll twice. -/
theorem C87_two_answers :
    let cfgs : List HandlerCfg := [.evmMsg 11 (.read "polygon".toList), .evmMsg 11 (.read "Polygon".toList)]
    validate cfgs = .ok () ∧
    sentUpon exTools 1 exSurroundings (.abci (announcedAny 11 (.inl exStarted))) 0 cfgs =
      [⟨1, 11, .vote 3 [.notFound]⟩, ⟨1, 11, .vote 3 [.notFound]⟩] := by
  refine ⟨by decide, by decide +kernel⟩

/-- an Ethereum written in small letters is asked for confirmations instead of its finalized block -/
example : Evm.finalizedHeight (.read "ethereum".toList) (exSurroundings 0).evm.node 10 = .ok 91 ∧
    Evm.finalizedHeight (.read "Ethereum".toList) (exSurroundings 0).evm.node 10 = .ok 90 := by decide

end Amp.Ampd
