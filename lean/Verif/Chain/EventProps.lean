import Verif.Chain.TrustProps
import Verif.Base.Hex

/-!
# C74: events of the source chain and messages

One event of the source chain can be verified, routed and signed as two messages, because its id can be spelled in
several ways (`C74_counterexample` in `Chain/EventExample.lean`).  With canonical ids it is one message.
-/

namespace Amp.Chain

open Amp.Router (ChainName CCId Message Lowering idSep)
open Amp.Encoding (Bytes)

/-! ### Specification -/

/-- how the daemons read transaction ids -/
def Source.readTx : Source → Str → Option Bytes
  | .evm _ _ R .. => R.hash
  | .sui _ _ R .. => R.digest

/-- the event of the source chain that the id of a message names: transaction and index -/
def Source.eventOf (s : Source) (m : Message) : Option (Bytes × Nat) :=
  match VV.parseMessageId m.ccId.id with
  | none => none
  | some (tx, i) => (s.readTx tx).map (fun h => (h, i))

/-- a transaction has one receipt on the chain, whose logs have distinct indices; likewise for Sui -/
def Source.Consistent : Source → Prop
  | .evm _ _ _ _ _ _ onChain => (∀ r r', onChain r → onChain r' → r.txHash = r'.txHash → r = r') ∧
      ∀ r, onChain r → Ampd.Evm.DistinctLogs r
  | .sui _ _ _ _ _ onChain => (∀ b b', onChain b → onChain b' → b.digest = b'.digest → b = b') ∧
      ∀ b, onChain b → Ampd.Sui.DistinctEvents b

/-- how the daemons read addresses of the source chain -/
def Source.readAddr : Source → Str → Option Bytes
  | .evm _ _ R .. => R.addr
  | .sui _ _ R .. => R.suiAddr

/-- how the daemons read names of chains -/
def Source.lowering : Source → Lowering
  | .evm _ L .. => L
  | .sui _ L .. => L

/-- ids written with a transaction id out of `texts` and a decimal number without leading zeros -/
def CanonicalId (texts : Str → Prop) (id : Str) : Prop :=
  ∃ tx n, texts tx ∧ tx ≠ [] ∧ idSep ∉ tx ∧ n ≤ u64Max ∧ id = tx ++ idSep :: showNat n

/-- `H256` is read from 64 hexadecimal digits of either case, with or without `0x`
(`fixed-hash` crate, external to the repository) -/
def readH256 (s : Str) : Option Bytes :=
  let digits := match s with
    | '0' :: 'x' :: t => t
    | t => t
  match decodeHex digits with
  | some b => if b.length = 32 then some b else none
  | none => none

/-- `H256` as it is usually written: `0x` and 64 small digits -/
def writeH256 (b : Bytes) : Str := '0' :: 'x' :: encodeHex b

/-! ### Helper lemmas -/

theorem parseMessageId_canonical {tx : Str} {n : Nat} (h1 : tx ≠ []) (h2 : idSep ∉ tx) (h3 : n ≤ u64Max) :
    VV.parseMessageId (tx ++ idSep :: showNat n) = some (tx, n) := by
  unfold VV.parseMessageId
  rw [splitOn_eq_two.mpr ⟨rfl, h2, notMem_showNat (by decide) n⟩]
  simp only
  rw [if_neg h1, parseU64_showNat h3]

theorem readH256_writeH256 {b : Bytes} (hb : IsBytes b) (hl : b.length = 32) : readH256 (writeH256 b) = some b := by
  unfold readH256 writeH256
  simp only [decodeHex_encodeHex hb, if_pos hl]

theorem eventOf_emitted {s : Source} {vc : VV.Config} {m : Message} (h : s.Emitted vc m) :
    ∃ e, s.eventOf m = some e := by
  unfold Source.eventOf
  cases s with
  | evm D L R decodeLog chain saw onChain =>
    obtain ⟨tx, i, x, _, _, _, _, h1, h2, _⟩ := h
    exact ⟨(x, i), by simp [h1, Source.readTx, h2]⟩
  | sui J L R json saw onChain =>
    obtain ⟨tx, i, x, _, _, _, _, h1, h2, _⟩ := h
    exact ⟨(x, i), by simp [h1, Source.readTx, h2]⟩

theorem pairwise_unique {α β : Type} {f : α → β} {l : List α} {a b : α}
    (h : l.Pairwise (fun x y => f x ≠ f y)) (ha : a ∈ l) (hb : b ∈ l) (hf : f a = f b) : a = b := by
  induction l with
  | nil => simp at ha
  | cons x t ih =>
    rw [List.pairwise_cons] at h
    rcases List.mem_cons.mp ha with rfl | ha1 <;> rcases List.mem_cons.mp hb with rfl | hb1
    · rfl
    · exact absurd hf (h.1 b hb1)
    · exact absurd hf.symm (h.1 a ha1)
    · exact ih h.2 ha1 hb1

theorem log_unique {D : Type} {l : List (Ampd.Evm.Log D)} {a b : Ampd.Evm.Log D} {i : Nat}
    (h : l.Pairwise (fun a b => a.index = none ∨ a.index ≠ b.index)) (ha : a ∈ l) (hb : b ∈ l)
    (hi : a.index = some i) (hj : b.index = some i) : a = b := by
  induction l with
  | nil => simp at ha
  | cons x t ih =>
    rw [List.pairwise_cons] at h
    rcases List.mem_cons.mp ha with rfl | ha1 <;> rcases List.mem_cons.mp hb with rfl | hb1
    · rfl
    · rcases h.1 b hb1 with h | h
      · rw [hi] at h; simp at h
      · rw [hi, hj] at h; simp at h
    · rcases h.1 a ha1 with h | h
      · rw [hj] at h; simp at h
      · rw [hi, hj] at h; simp at h
    · exact ih h.2 ha1 hb1

/-! ### C74 -/

/-- C74, content: two messages that stem from one event of the source chain agree in everything but the spelling of
their ids, source addresses and destination chains. -/
theorem C74_same_content_partial (s : Source) (hs : s.Consistent) (vc vc' : VV.Config) (m m' : Message)
    (h : s.Emitted vc m) (h' : s.Emitted vc' m') (he : s.eventOf m = s.eventOf m') :
    m.destinationAddress = m'.destinationAddress ∧ m.payloadHash = m'.payloadHash ∧
      s.readAddr m.sourceAddress = s.readAddr m'.sourceAddress ∧
      ChainName.parse s.lowering m.destinationChain = ChainName.parse s.lowering m'.destinationChain := by
  cases s with
  | evm D L R decodeLog chain saw onChain =>
    obtain ⟨tx, i, x, gw, src, dest, r, a1, a2, a3, a4, a5, a6, a7, lg, a8, a9, a10, a11, c, a12, a13⟩ := h
    obtain ⟨tx', i', x', gw', src', dest', r', b1, b2, b3, b4, b5, b6, b7, lg', b8, b9, b10, b11, c', b12, b13⟩ := h'
    simp only [Source.eventOf, a1, b1, Source.readTx, a2, b2, Option.map_some, Option.some.injEq,
      Prod.mk.injEq] at he
    obtain ⟨rfl, rfl⟩ := he
    have hr := hs.1 r r' a6 b6 (by rw [a7, b7])
    subst hr
    have hl := log_unique (hs.2 r a6) a8 b8 a9 b9
    subst hl
    rw [a13] at b13
    simp only [Option.some.injEq, Ampd.Evm.GatewayEvent.contractCall.injEq] at b13
    obtain ⟨h1, h2, h3, h4⟩ := b13
    subst h2
    simp only at a12 b12
    refine ⟨h3, h4, ?_, ?_⟩
    · show R.addr _ = R.addr _
      rw [a4, b4, h1]
    · show ChainName.parse L _ = ChainName.parse L _
      rw [a5, b5, ← a12, ← b12]
  | sui J L R json saw onChain =>
    obtain ⟨tx, i, x, gw, src, dest, r, a1, a2, a3, a4, a5, a6, a7, a7', es, a7'', ev, a8, a9, a10, c, a12, a13⟩ := h
    obtain ⟨tx', i', x', gw', src', dest', r', b1, b2, b3, b4, b5, b6, b7, b7', es', b7'', ev', b8, b9, b10, c', b12,
      b13⟩ := h'
    simp only [Source.eventOf, a1, b1, Source.readTx, a2, b2, Option.map_some, Option.some.injEq,
      Prod.mk.injEq] at he
    obtain ⟨rfl, rfl⟩ := he
    have hr := hs.1 r r' a6 b6 (by rw [a7, b7])
    subst hr
    rw [a7''] at b7''
    simp only [Option.some.injEq] at b7''
    subst b7''
    have hl := pairwise_unique (hs.2 r a6 es a7'') a8 b8 (by rw [a9, b9])
    subst hl
    rw [a13] at b13
    simp only [Option.some.injEq, Ampd.Sui.ContractCall.mk.injEq] at b13
    obtain ⟨h1, h2, h3, h4⟩ := b13
    subst h2
    simp only at a12 b12
    refine ⟨h3, h4, ?_, ?_⟩
    · show R.suiAddr _ = R.suiAddr _
      rw [a4, b4, h1]
    · show ChainName.parse L _ = ChainName.parse L _
      rw [a5, b5, ← a12, ← b12]

/-- C74 for canonical ids: two messages with different canonical ids stem from different events, whenever
transaction ids out of `texts` are read as different transactions. -/
theorem C74_canonical_partial (s : Source) (texts : Str → Prop)
    (hinj : ∀ a b, texts a → texts b → s.readTx a = s.readTx b → a = b) (vc vc' : VV.Config) (m m' : Message)
    (h : s.Emitted vc m) (h' : s.Emitted vc' m') (hc : CanonicalId texts m.ccId.id)
    (hc' : CanonicalId texts m'.ccId.id) (hne : m.ccId.id ≠ m'.ccId.id) : s.eventOf m ≠ s.eventOf m' := by
  intro he
  obtain ⟨e, h1⟩ := eventOf_emitted h
  obtain ⟨tx, n, a1, a2, a3, a4, a5⟩ := hc
  obtain ⟨tx', n', b1, b2, b3, b4, b5⟩ := hc'
  have h2 := he ▸ h1
  unfold Source.eventOf at h1 h2
  rw [a5, parseMessageId_canonical a2 a3 a4] at h1
  rw [b5, parseMessageId_canonical b2 b3 b4] at h2
  simp only [Option.map_eq_some_iff] at h1 h2
  obtain ⟨x, hx, rfl⟩ := h1
  obtain ⟨y, hy, hxy⟩ := h2
  obtain ⟨rfl, rfl⟩ := Prod.mk.inj hxy
  rw [hinj tx tx' a1 b1 (by rw [hx, hy])] at a5
  exact hne (by rw [a5, b5])

/-- C74 for canonical ids of EVM transactions: `0x`, 64 small hexadecimal digits, `:`, a decimal number. -/
theorem C74_canonical_h256_partial (D : Type) (L : Lowering) (R : Ampd.Reader) (hR : R.hash = readH256)
    (decodeLog : D → Option Ampd.Evm.GatewayEvent) (chain : Ampd.Evm.Chain) (saw : Addr → Ampd.Evm.Env D → Prop)
    (onChain : Ampd.Evm.Receipt D → Prop) (vc vc' : VV.Config) (m m' : Message)
    (h : (Source.evm D L R decodeLog chain saw onChain).Emitted vc m)
    (h' : (Source.evm D L R decodeLog chain saw onChain).Emitted vc' m')
    (tx tx' : Bytes) (i i' : Nat) (ht : IsBytes tx ∧ tx.length = 32) (ht' : IsBytes tx' ∧ tx'.length = 32)
    (hi : i ≤ u64Max) (hi' : i' ≤ u64Max)
    (hm : m.ccId.id = writeH256 tx ++ idSep :: showNat i) (hm' : m'.ccId.id = writeH256 tx' ++ idSep :: showNat i')
    (hne : m.ccId.id ≠ m'.ccId.id) :
    (Source.evm D L R decodeLog chain saw onChain).eventOf m ≠
      (Source.evm D L R decodeLog chain saw onChain).eventOf m' := by
  have hsep : ∀ b, IsBytes b → idSep ∉ writeH256 b := by
    intro b hb
    unfold writeH256
    simp only [List.mem_cons, not_or]
    exact ⟨by decide, by decide, (encodeHex_notMem hb).1⟩
  refine C74_canonical_partial _ (fun t => ∃ b, IsBytes b ∧ b.length = 32 ∧ t = writeH256 b) ?_ vc vc' m m' h h'
    ⟨_, i, ⟨tx, ht.1, ht.2, rfl⟩, by simp [writeH256], hsep _ ht.1, hi, hm⟩
    ⟨_, i', ⟨tx', ht'.1, ht'.2, rfl⟩, by simp [writeH256], hsep _ ht'.1, hi', hm'⟩ hne
  rintro a b ⟨x, hx, hxl, rfl⟩ ⟨y, hy, hyl, rfl⟩ hxy
  simp only [Source.readTx, hR, readH256_writeH256 hx hxl, readH256_writeH256 hy hyl, Option.some.injEq] at hxy
  rw [hxy]

end Amp.Chain
