import Mathlib.Data.List.Forall2
import Verif.Wire.EventLemmas
import Verif.Wire.Spec

/-!
# Lemmas for C94: what is read out of events
-/

namespace Amp.Wire

open Amp.Encoding (Bytes)
open Amp.Router (ChainName Lowering)
open Amp.Std (Vote)
open Amp.Multisig (PublicKey)
open Amp.Ampd (readAll lastWith Abci)

variable {finite : Str → Bool} {T : Texts}

theorem readsAs_iff {s t : Str} : asStr (attributeValue finite s) = some t ↔ ReadsAs finite s t := by
  unfold attributeValue ReadsAs
  cases h : fromStr finite s with
  | none =>
    simp only [Option.getD_none, asStr_str, Option.some.injEq, true_and, reduceCtorEq, or_false]
    exact eq_comm
  | some j =>
    simp only [Option.getD_some, reduceCtorEq, false_and, false_or, Option.some.injEq]
    cases j <;> simp [asStr]

theorem attr_bind_iff {α : Type} {f : Str → Option α} {s : Str} {x : α} :
    (asStr (attributeValue finite s)).bind f = some x ↔ ∃ t, ReadsAs finite s t ∧ f t = some x := by
  simp only [Option.bind_eq_some_iff, readsAs_iff]

theorem readAll_iff {α β : Type} {f : α → Option β} {l : List α} {m : List β} :
    readAll f l = some m ↔ List.Forall₂ (fun a b => f a = some b) l m := by
  induction l generalizing m with
  | nil => cases m <;> simp [readAll]
  | cons a t ih =>
    cases m with
    | nil =>
      simp only [readAll, List.forall₂_nil_right_iff, reduceCtorEq, iff_false]
      split
      · simp
      · split <;> simp
    | cons b bs =>
      rw [List.forall₂_cons, ← ih]
      simp only [readAll]
      split
      · rename_i h; simp [h]
      · rename_i x h
        rw [h]
        split
        · rename_i h2; simp [h2]
        · rename_i y h2; simp [h2]

theorem readAll_filter {α : Type} {p : α → Prop} [DecidablePred p] {l m : List α} :
    readAll (fun a => if p a then some a else none) l = some m ↔ m = l ∧ ∀ a ∈ l, p a := by
  induction l generalizing m with
  | nil => simp [readAll, eq_comm]
  | cons a t ih =>
    simp only [readAll]
    by_cases h : p a
    · simp only [h, if_true]
      split
      · rename_i h2
        have : ¬ ∀ a ∈ t, p a := fun hall => by
          have := (ih (m := t)).mpr ⟨rfl, hall⟩
          rw [h2] at this; simp at this
        simp only [reduceCtorEq, false_iff, not_and]
        intro _ hall
        exact this (fun a ha => hall a (List.mem_cons_of_mem _ ha))
      · rename_i bs h2
        obtain ⟨rfl, hall⟩ := ih.mp h2
        simp only [Option.some.injEq]
        refine ⟨fun e => ⟨e.symm, fun x hx => ?_⟩, fun e => e.1.symm⟩
        rcases List.mem_cons.mp hx with rfl | hx
        · exact h
        · exact hall x hx
    · simp only [h, if_false, reduceCtorEq, false_iff, not_and]
      intro _ hall
      exact h (hall a (List.mem_cons_self ..))

theorem evm_message_iff (L : Lowering) (c : VV.TxConfirmation) (m : Ampd.Evm.Message) :
    Ampd.Evm.readMessage L (reader finite T) c = some m ↔ Evm.SameMessage L c m := by
  obtain ⟨a1, a2, a3, a4, a5, a6⟩ := m
  constructor
  · intro h
    unfold Ampd.Evm.readMessage at h
    split at h
    · simp at h
    rename_i tx h1
    split at h
    · simp at h
    rename_i dest h2
    split at h
    · simp at h
    rename_i src h3
    simp only [Option.some.injEq, Ampd.Evm.Message.mk.injEq] at h
    obtain ⟨rfl, rfl, rfl, rfl, rfl, rfl⟩ := h
    exact ⟨h1, rfl, rfl, h2, h3, rfl⟩
  · rintro ⟨h1, h2, h3, h4, h5, h6⟩
    simp only at h1 h2 h3 h4 h5 h6
    subst h2 h3 h6
    simp only [Ampd.Evm.readMessage, reader, h1, h4, h5]

theorem sui_message_iff (L : Lowering) (c : VV.TxConfirmation) (m : Ampd.Sui.Message) :
    Ampd.Sui.readMessage L (reader finite T) c = some m ↔ Sui.SameMessage L T c m := by
  obtain ⟨a1, a2, a3, a4, a5, a6⟩ := m
  constructor
  · intro h
    unfold Ampd.Sui.readMessage at h
    split at h
    · simp at h
    rename_i tx h1
    split at h
    · simp at h
    rename_i dest h2
    split at h
    · simp at h
    rename_i src h3
    simp only [Option.some.injEq, Ampd.Sui.Message.mk.injEq] at h
    obtain ⟨rfl, rfl, rfl, rfl, rfl, rfl⟩ := h
    exact ⟨h1, rfl, rfl, h2, h3, rfl⟩
  · rintro ⟨h1, h2, h3, h4, h5, h6⟩
    simp only at h1 h2 h3 h4 h5 h6
    subst h2 h3 h6
    simp only [Ampd.Sui.readMessage, reader, h1, h4, h5]

theorem evm_workerSet_iff (tx : Str) (i : Nat) (o : Std.Operators) (w : Ampd.Evm.WorkerSet) :
    Ampd.Evm.readWorkerSet (reader finite T) tx i o = some w ↔ Evm.SameWorkerSet tx i o w := by
  obtain ⟨a1, a2, a3, a4⟩ := w
  constructor
  · intro h
    unfold Ampd.Evm.readWorkerSet at h
    split at h
    · simp at h
    rename_i x h1
    split at h
    · simp at h
    rename_i ops h2
    obtain ⟨rfl, h3⟩ := readAll_filter.mp h2
    simp only [Option.some.injEq, Ampd.Evm.WorkerSet.mk.injEq] at h
    obtain ⟨rfl, rfl, rfl, rfl⟩ := h
    exact ⟨h1, rfl, rfl, h3, rfl⟩
  · rintro ⟨h1, h2, h3, h4, h5⟩
    simp only at h1 h2 h3 h4 h5
    subst h2 h3 h5
    have := (readAll_filter (p := fun p : Bytes × Nat => p.1.length = 20)).mpr ⟨rfl, h4⟩
    have h6 : readAll Ampd.readOperator o.weights = some o.weights := this
    simp only [Ampd.Evm.readWorkerSet, reader, h1, h6]

theorem sui_workerSet_iff (tx : Str) (i : Nat) (o : Std.Operators) (w : Ampd.Sui.WorkerSet) :
    Ampd.Sui.readWorkerSet (reader finite T) tx i o = some w ↔ Sui.SameWorkerSet T tx i o w := by
  obtain ⟨a1, a2, a3, a4⟩ := w
  constructor
  · intro h
    unfold Ampd.Sui.readWorkerSet at h
    split at h
    · simp at h
    rename_i x h1
    split at h
    · simp at h
    rename_i ops h2
    obtain ⟨rfl, h3⟩ := readAll_filter.mp h2
    split at h
    · rename_i h4
      simp only [Option.some.injEq, Ampd.Sui.WorkerSet.mk.injEq] at h
      obtain ⟨rfl, rfl, rfl, rfl⟩ := h
      exact ⟨h1, rfl, rfl, h3, rfl, h4⟩
    · simp at h
  · rintro ⟨h1, h2, h3, h4, h5, h6⟩
    simp only at h1 h2 h3 h4 h5 h6
    subst h2 h3 h5
    have := (readAll_filter (p := fun p : Bytes × Nat => p.2 ≤ u128Max)).mpr ⟨rfl, h4⟩
    simp only [Ampd.Sui.readWorkerSet, reader, h1, this, h6, if_true]

theorem evm_poll_iff {α : Type} (L : Lowering) (V : Addr) (pm : VV.PollMeta) (content : Option α)
    (p : Ampd.Evm.PollStarted α) :
    Ampd.Evm.readPoll L (reader finite T) V pm content = some p ↔
      Evm.SamePoll finite L V pm p ∧ content = some p.content := by
  obtain ⟨a1, a2, a3, a4, a5, a6, a7, a8⟩ := p
  constructor
  · intro h
    unfold Ampd.Evm.readPoll at h
    split at h
    · simp at h
    rename_i chain h1
    split at h
    · simp at h
    rename_i gw h2
    split at h
    · simp at h
    rename_i x
    simp only [Option.some.injEq, Ampd.Evm.PollStarted.mk.injEq] at h
    obtain ⟨rfl, rfl, rfl, rfl, rfl, rfl, rfl, rfl⟩ := h
    exact ⟨⟨rfl, rfl, attr_bind_iff.mp h1, attr_bind_iff.mp h2, rfl, rfl, rfl⟩, rfl⟩
  · rintro ⟨⟨h1, h2, h3, h4, h5, h6, h7⟩, h8⟩
    simp only at h1 h2 h3 h4 h5 h6 h7 h8
    subst h1 h2 h5 h6 h7 h8
    have e3 := attr_bind_iff.mpr h3
    have e4 := attr_bind_iff.mpr h4
    simp only [Ampd.Evm.readPoll, reader, e3, e4]

theorem sui_poll_iff {α : Type} (V : Addr) (pm : VV.PollMeta) (content : Option α) (p : Ampd.Sui.PollStarted α) :
    Ampd.Sui.readPoll (reader finite T) V pm content = some p ↔
      Sui.SamePoll finite T V pm p ∧ content = some p.content := by
  obtain ⟨a1, a2, a3, a4, a5, a6⟩ := p
  constructor
  · intro h
    unfold Ampd.Sui.readPoll at h
    split at h
    · simp at h
    rename_i gw h2
    split at h
    · simp at h
    rename_i x
    simp only [Option.some.injEq, Ampd.Sui.PollStarted.mk.injEq] at h
    obtain ⟨rfl, rfl, rfl, rfl, rfl, rfl⟩ := h
    exact ⟨⟨rfl, rfl, attr_bind_iff.mp h2, rfl, rfl⟩, rfl⟩
  · rintro ⟨⟨h1, h2, h4, h6, h7⟩, h8⟩
    simp only at h1 h2 h4 h6 h7 h8
    subst h1 h2 h6 h7 h8
    have e4 := attr_bind_iff.mpr h4
    simp only [Ampd.Sui.readPoll, reader, e4]

theorem hexText_encodeHex {b : Bytes} (h : IsBytes b) : HexText (encodeHex b) := by
  have hd : ∀ n < 16, (hexDigit n).isDigit = true ∨ hexDigit n ∈ ['a', 'b', 'c', 'd', 'e', 'f'] := by decide
  induction b with
  | nil => intro c hc; simp [encodeHex] at hc
  | cons x t ih =>
    have hx : x < 256 := h x (List.mem_cons_self ..)
    intro c hc
    simp only [encodeHex, List.mem_cons] at hc
    rcases hc with rfl | rfl | hc
    · exact hd _ (by omega)
    · exact hd _ (by omega)
    · exact ih (fun y hy => h y (List.mem_cons_of_mem _ hy)) c hc

/-- hexadecimal text is read as itself or not at all -/
theorem readsAs_hex {s t : Str} (hs : HexText s) (h : ReadsAs finite s t) : t = s ∧ fromStr finite s = none := by
  rcases h with ⟨h1, h2⟩ | h
  · exact ⟨h2, h1⟩
  · rcases (fromStr_hex_some hs h).2 with ⟨n, h, _⟩ | ⟨h, _⟩ <;> exact absurd h (by simp)

theorem signing_iff (curve : PublicKey → Option Bytes) (M : Addr) (id : Nat) (wid : Str) (keys : List (Addr × PublicKey))
    {msg : Bytes} (hb : IsBytes msg) (chain : Str) (s : Ampd.Signing.SigningStarted) :
    Ampd.Signing.readSigning (signingReader finite curve) (M, .signingStarted id wid keys msg chain) = some s ↔
      Signing.SameSession finite curve M id keys msg s := by
  obtain ⟨a1, a2, a3, a4⟩ := s
  have hk : ∀ ks, readAll (Ampd.Signing.readKey (signingReader finite curve)) keys = some ks ↔
      List.Forall₂ (fun p q => q.1 = p.1 ∧ curve p.2 = some q.2) keys ks := by
    intro ks
    rw [readAll_iff]
    have : ∀ (p : Addr × PublicKey) (q : Addr × Bytes),
        Ampd.Signing.readKey (signingReader finite curve) p = some q ↔ (q.1 = p.1 ∧ curve p.2 = some q.2) := by
      rintro ⟨a, pk⟩ ⟨b, k⟩
      simp only [Ampd.Signing.readKey, signingReader]
      cases curve pk with
      | none => simp
      | some k' => simp only [Option.some.injEq, Prod.mk.injEq]; exact ⟨fun h => ⟨h.1.symm, h.2⟩, fun h => ⟨h.1.symm, h.2⟩⟩
    simp only [this]
  constructor
  · intro h
    obtain ⟨id', wid', keys', msg', chain', ks, h1, h2, h3, h4, h5, h6, h7⟩ := Ampd.Signing.readSigning_some h
    simp only [Multisig.Event.signingStarted.injEq] at h1
    obtain ⟨rfl, rfl, rfl, rfl, rfl⟩ := h1
    simp only at h3 h4 h5 h6 h7
    subst h5 h6 h7
    obtain ⟨t, ht, hm⟩ := attr_bind_iff.mp h3
    obtain ⟨rfl, hp⟩ := readsAs_hex (hexText_encodeHex hb) ht
    rw [decodeHex_encodeHex hb, Option.some.injEq] at hm
    subst hm
    exact ⟨rfl, rfl, (hk _).mp h2, ht, rfl, h4⟩
  · rintro ⟨h1, h2, h3, h4, h5, h6⟩
    simp only at h1 h2 h3 h5
    subst h1 h2 h5
    have e3 := (hk _).mpr h3
    have e4 : (signingReader finite curve).attr (encodeHex a4) = some (encodeHex a4) := readsAs_iff.mpr h4
    simp only [Ampd.Signing.readSigning, e3, e4, Option.bind_some, decodeHex_encodeHex hb, h6, if_true]

theorem ofDigitChars_lower (s : Str) (n : Nat) : n * 10 ^ s.length ≤ Nat.ofDigitChars 10 s n := by
  induction s generalizing n with
  | nil => simp [Nat.ofDigitChars]
  | cons c t ih =>
    have := ih (10 * n + (c.toNat - '0'.toNat))
    rw [Nat.ofDigitChars_cons]
    refine Nat.le_trans ?_ this
    rw [List.length_cons, Nat.pow_succ]
    calc n * (10 ^ t.length * 10) = 10 * n * 10 ^ t.length := by rw [Nat.mul_comm (10 ^ _), ← Nat.mul_assoc, Nat.mul_comm n]
      _ ≤ _ := Nat.mul_le_mul_right _ (Nat.le_add_right _ _)

/-- sixty-four digits are more than 64 bits hold -/
theorem big_digits {s : Str} (h : IntText s) (hl : s.length = 64) : u64Max < Nat.ofDigitChars 10 s 0 := by
  obtain ⟨_, hd, hz⟩ := h
  cases s with
  | nil => simp at hl
  | cons c t =>
    have h0 : c ≠ '0' := by
      rcases hz with hz | hz
      · rw [hz] at hl; simp at hl
      · simpa using hz
    have hc := hd c (List.mem_cons_self ..)
    have h1 : 1 ≤ c.toNat - '0'.toNat := by
      simp only [Char.isDigit, Bool.and_eq_true, decide_eq_true_eq, ge_iff_le, UInt32.le_iff_toNat_le] at hc
      have e1 : '0'.val.toNat = 48 := rfl
      have e2 : '0'.toNat = 48 := rfl
      have e3 : c.toNat ≠ 48 := fun e => h0 (Char.ext (UInt32.toNat.inj e))
      have e4 : c.toNat = c.val.toNat := rfl
      omega
    have := ofDigitChars_lower t (10 * 0 + (c.toNat - '0'.toNat))
    rw [Nat.ofDigitChars_cons]
    have hlt : t.length = 63 := by simpa using hl
    rw [hlt] at this
    have h2 : 10 ^ 63 ≤ (10 * 0 + (c.toNat - '0'.toNat)) * 10 ^ 63 := Nat.le_mul_of_pos_left _ (by omega)
    have h3 : u64Max < 10 ^ 63 := by decide
    omega

theorem tryFrom_congr {V V' E : Type} {name : Str} {deser : V → Option E} {deser' : V' → Option E} {a : Abci V}
    {a' : Abci V'} (h1 : a.type = a'.type) (h2 : deser a.attributes = deser' a'.attributes) :
    Ampd.tryFrom name deser (.abci a) = Ampd.tryFrom name deser' (.abci a') := by
  simp only [Ampd.tryFrom, h1, h2]

theorem decoded_verifier (V : Addr) (ev : VV.Event) :
    decodeEvent finite (publishVerifier T V ev) = some ⟨Ampd.eventType ev, verifierMap finite T V ev⟩ :=
  decodeEvent_publish finite T _ V _

theorem decoded_multisig (M : Addr) (ev : Multisig.Event) :
    decodeEvent finite (publishMultisig T M ev) = some ⟨Ampd.Signing.eventType ev, multisigMap finite T M ev⟩ :=
  decodeEvent_publish finite T _ M _

end Amp.Wire
