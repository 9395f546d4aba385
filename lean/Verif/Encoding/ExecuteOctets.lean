import Verif.Encoding.Octets

/-!
# Lemmas for C111: what is sent to a destination gateway is bytes
-/

namespace Amp.Encoding

open Amp.Multisig (WorkerSet Signer Signature)

/-- keys and signatures are bytes -/
def SignersOctets (l : List (Signer × Option Signature)) : Prop :=
  ∀ e ∈ l, IsBytes e.1.pubKey.bytes ∧ ∀ s, e.2 = some s → IsBytes s.bytes

theorem isBytes_take {b : Bytes} (h : IsBytes b) (n : Nat) : IsBytes (b.take n) := fun x hx => h x (List.mem_of_mem_take hx)

theorem isBytes_snoc {b : Bytes} (h : IsBytes b) {n : Nat} (hn : n < 256) : IsBytes (b ++ [n]) :=
  isBytes_append h (fun x hx => by rw [List.mem_singleton.mp hx]; exact hn)

namespace Abi

theorem encode_isBytes {d : Data} (hd : ∀ c ∈ d.commands, IsBytes c.id ∧ IsBytes c.params) {b : Bytes} (hb : encode d = .ok b) :
    IsBytes b := by
  refine ethabi_isBytes ?_ hb
  intro t ht
  simp only [List.mem_cons, List.not_mem_nil, or_false] at ht
  rcases ht with rfl | rfl | rfl | rfl
  · trivial
  · intro e he
    obtain ⟨c, hc, rfl⟩ := List.mem_map.mp he
    exact (hd c hc).1
  · intro e he
    obtain ⟨c, _, rfl⟩ := List.mem_map.mp he
    exact utf8Bytes_isBytes _
  · intro e he
    obtain ⟨c, hc, rfl⟩ := List.mem_map.mp he
    exact (hd c hc).2

theorem recoverable_octets {X : Ext} (hr : ∀ d k s r, X.recoveryId d k s = some r → r ≤ 3) {digest : Bytes}
    {l : List (Signer × Option Signature)} (h : SignersOctets l) : SignersOctets (recoverableSigners X digest add27 l) := by
  intro e he
  obtain ⟨x, hx, rfl⟩ := List.mem_map.mp he
  refine ⟨(h x hx).1, ?_⟩
  intro s hs
  dsimp only at hs
  split at hs
  · rename_i b hxb
    unfold toRecoverable at hs
    split at hs
    · cases hs
    · rename_i r hid
      have hr3 := hr _ _ _ _ hid
      simp only [Option.some.injEq] at hs
      rw [← hs]
      exact isBytes_snoc ((h x hx).2 _ hxb) (by unfold add27; omega)
  · exact (h x hx).2 s hs

theorem encodeProof_isBytes {X : Ext} (hX : ∀ b, IsBytes (X.keccak b)) {q : Nat} {l : List (Signer × Option Signature)}
    (h : SignersOctets l) {b : Bytes} (hb : encodeProof X q l = .ok b) : IsBytes b := by
  unfold encodeProof at hb
  split at hb
  · simp at hb
  rename_i ops hops
  dsimp only at hb
  split at hb
  · simp at hb
  rename_i as has
  have hop : ∀ o ∈ ops, IsBytes o.address ∧ ∀ s, o.signature = some s → IsBytes s.bytes := by
    intro o ho
    obtain ⟨e, he, heo⟩ := mapE_mem_right hops ho
    split at heo
    · simp at heo
    rename_i a ha
    simp only [Except.ok.injEq] at heo
    rw [← heo]
    refine ⟨?_, (h e he).2⟩
    unfold evmAddress at ha
    split at ha
    · simp at ha
    simp only [Except.ok.injEq] at ha
    rw [← ha]
    exact isBytes_drop (hX _) _
  have hmem : ∀ o ∈ sortBy opLe ops, o ∈ ops := fun o ho => (sortBy_perm opLe ops).mem_iff.mp ho
  refine ethabi_isBytes ?_ hb
  intro t ht
  simp only [List.mem_cons, List.not_mem_nil, or_false] at ht
  rcases ht with rfl | rfl | rfl | rfl
  · intro e he
    obtain ⟨o, ho, hoe⟩ := mapE_mem_right has he
    unfold addressTok at hoe
    split at hoe
    · simp only [Except.ok.injEq] at hoe
      rw [← hoe]
      exact (hop o (hmem o ho)).1
    · simp at hoe
  · intro e he
    obtain ⟨o, _, rfl⟩ := List.mem_map.mp he
    trivial
  · trivial
  · intro e he
    obtain ⟨o, ho, hoe⟩ := List.mem_filterMap.mp he
    cases hs : o.signature with
    | none => rw [hs] at hoe; cases hoe
    | some s =>
      rw [hs] at hoe
      simp only [Option.map_some, Option.some.injEq] at hoe
      rw [← hoe]
      exact (hop o (hmem o ho)).2 s hs

theorem executeData_isBytes {X : Ext} (hX : ∀ b, IsBytes (X.keccak b)) (hr : ∀ d k s r, X.recoveryId d k s = some r → r ≤ 3)
    {d : Data} (hd : ∀ c ∈ d.commands, IsBytes c.id ∧ IsBytes c.params) {q : Nat} {l : List (Signer × Option Signature)}
    (h : SignersOctets l) {b : Bytes} (hb : encodeExecuteData X d q l = .ok b) : IsBytes b := by
  unfold encodeExecuteData at hb
  split at hb
  · simp at hb
  split at hb
  · simp at hb
  rename_i e he
  split at hb
  · simp at hb
  rename_i p hp
  split at hb
  · simp at hb
  rename_i param hparam
  split at hb
  · simp at hb
  rename_i input hinput
  simp only [Except.ok.injEq] at hb
  rw [← hb]
  have h1 : IsBytes param := by
    refine ethabi_isBytes ?_ hparam
    intro t ht
    simp only [List.mem_cons, List.not_mem_nil, or_false] at ht
    rcases ht with rfl | rfl
    · exact encode_isBytes hd he
    · exact encodeProof_isBytes hX (recoverable_octets hr h) hp
  refine isBytes_append (isBytes_take (hX _) _) (ethabi_isBytes ?_ hinput)
  intro t ht
  rw [List.mem_singleton.mp ht]
  exact h1

end Abi

namespace Bcs

theorem encode_isBytes {d : Data} (hd : ∀ c ∈ d.commands, IsBytes c.id ∧ IsBytes c.params) {b : Bytes} (hb : encode d = .ok b) :
    IsBytes b := by
  unfold encode at hb
  split at hb
  · simp at hb
  split at hb
  · simp at hb
  rename_i ids hids
  refine expectB_octets (cat_octets ?_) b hb
  intro x hx
  simp only [List.mem_cons, List.not_mem_nil, or_false] at hx
  rcases hx with rfl | rfl | rfl | rfl
  · exact octets_ok (le_isBytes _ _)
  · refine seqB_octets ?_
    intro y hy
    obtain ⟨i, hi, rfl⟩ := List.mem_map.mp hy
    obtain ⟨c, hc, hci⟩ := mapE_mem_right hids hi
    unfold makeCommandId at hci
    split at hci
    · simp only [Except.ok.injEq] at hci
      rw [← hci]
      exact octets_ok (hd c hc).1
    · simp at hci
  · refine seqB_octets ?_
    intro y hy
    obtain ⟨c, _, rfl⟩ := List.mem_map.mp hy
    exact bytesB_octets (utf8Bytes_isBytes _)
  · refine seqB_octets ?_
    intro y hy
    obtain ⟨c, hc, rfl⟩ := List.mem_map.mp hy
    exact bytesB_octets (hd c hc).2

theorem recoverable_octets {X : Ext} (hr : ∀ d k s r, X.recoveryId d k s = some r → r ≤ 3) {digest : Bytes}
    {l : List (Signer × Option Signature)} (h : SignersOctets l) : SignersOctets (recoverableSigners X digest l) := by
  intro e he
  obtain ⟨x, hx, rfl⟩ := List.mem_map.mp he
  refine ⟨(h x hx).1, ?_⟩
  intro s hs
  dsimp only at hs
  split at hs
  · rename_i b hxb
    split at hs
    · cases hs
    · rename_i r hid
      have hr3 := hr _ _ _ _ hid
      simp only [Option.some.injEq] at hs
      rw [← hs]
      exact isBytes_snoc ((h x hx).2 _ hxb) (by omega)
  · exact (h x hx).2 s hs

theorem encodeProof_isBytes {q : Nat} {l : List (Signer × Option Signature)} (h : SignersOctets l) {b : Bytes}
    (hb : encodeProof q l = .ok b) : IsBytes b := by
  unfold encodeProof at hb
  dsimp only at hb
  split at hb
  · simp at hb
  split at hb
  · simp at hb
  have hop : ∀ o ∈ sortBy opLe (makeOperatorsWithSigs l), IsBytes o.address ∧ ∀ s, o.signature = some s → IsBytes s.bytes := by
    intro o ho
    obtain ⟨e, he, rfl⟩ := List.mem_map.mp ((sortBy_perm opLe _).mem_iff.mp ho)
    exact h e he
  refine cat_octets ?_ b hb
  intro x hx
  simp only [List.mem_cons, List.not_mem_nil, or_false] at hx
  rcases hx with rfl | rfl | rfl | rfl
  · refine seqB_octets ?_
    intro y hy
    obtain ⟨o, ho, rfl⟩ := List.mem_map.mp hy
    exact bytesB_octets (hop o ho).1
  · refine seqB_octets ?_
    intro y hy
    obtain ⟨o, _, rfl⟩ := List.mem_map.mp hy
    exact octets_ok (le_isBytes _ _)
  · exact octets_ok (le_isBytes _ _)
  · refine seqB_octets ?_
    intro y hy
    obtain ⟨z, hz, rfl⟩ := List.mem_map.mp hy
    obtain ⟨o, ho, hoz⟩ := List.mem_filterMap.mp hz
    cases hs : o.signature with
    | none => rw [hs] at hoz; cases hoz
    | some s =>
      rw [hs] at hoz
      simp only [Option.map_some, Option.some.injEq] at hoz
      rw [← hoz]
      exact bytesB_octets ((hop o ho).2 s hs)

theorem executeData_isBytes {X : Ext} (hr : ∀ d k s r, X.recoveryId d k s = some r → r ≤ 3)
    {d : Data} (hd : ∀ c ∈ d.commands, IsBytes c.id ∧ IsBytes c.params) {q : Nat} {l : List (Signer × Option Signature)}
    (h : SignersOctets l) {b : Bytes} (hb : encodeExecuteData X d q l = .ok b) : IsBytes b := by
  unfold encodeExecuteData at hb
  split at hb
  · simp at hb
  split at hb
  · simp at hb
  rename_i e he
  split at hb
  · simp at hb
  rename_i p hp
  refine cat_octets ?_ b hb
  intro x hx
  simp only [List.mem_cons, List.not_mem_nil, or_false] at hx
  rcases hx with rfl | rfl
  · exact bytesB_octets (encode_isBytes hd he)
  · exact bytesB_octets (encodeProof_isBytes (recoverable_octets hr h) hp)

end Bcs

end Amp.Encoding
