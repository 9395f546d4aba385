import Verif.Proto.TxProps

/-!
# C100: the account that the daemon starts with
-/

namespace Amp.Proto

open Amp.Ampd (BroadcastCfg Replies Client broadcast broadcasts)

/-- the fields of `BaseAccount`, as the chain writes it -/
def BaseAccount.fields (a : BaseAccount) : List (Nat × Field) :=
  str 1 a.address ++ (match a.pubKey with | none => [] | some k => [(2, .bytes (write k.fields))]) ++ num 3 a.number ++
    num 4 a.sequence

/-- kinds of accounts on the chain that can have a key: `BaseAccount`, and `DelayedVestingAccount` with what it has besides
(`BaseVestingAccount`: coins, all or none of them left out here, and the time of the end) -/
inductive ChainAccount
  | base (a : BaseAccount)
  | delayedVesting (a : BaseAccount) (original : List CoinMsg) (endTime : Nat)

/-- number and sequence of an account on the chain -/
def ChainAccount.inner : ChainAccount → BaseAccount
  | .base a => a
  | .delayedVesting a _ _ => a

/-- the answer of the chain -/
def ChainAccount.any : ChainAccount → AnyMsg
  | .base a => ⟨"/cosmos.auth.v1beta1.BaseAccount".toList, write a.fields⟩
  | .delayedVesting a cs t => ⟨"/cosmos.vesting.v1beta1.DelayedVestingAccount".toList,
      write [(1, .bytes (write ([(1, .bytes (write a.fields))] ++ many 2 (cs.map (fun c => write c.fields)) ++ num 5 t)))]⟩

/-- The full statement: if the daemon takes an answer, it has the number and sequence of the account. -/
def AccountRight : Prop := ∀ c b, account (some (some c.any)) = .ok b →
  b.number = (ChainAccount.inner c).number ∧ b.sequence = (ChainAccount.inner c).sequence

theorem tagOk_account {a : BaseAccount} (hn : a.number ≤ u64Max) (hs : a.sequence ≤ u64Max) : ∀ f ∈ a.fields, TagOk f := by
  refine tagOk_append (tagOk_append (tagOk_append (tagOk_str (by decide) (by decide) _) ?_)
    (tagOk_num (by decide) (by decide) hn)) (tagOk_num (by decide) (by decide) hs)
  cases a.pubKey with
  | none => simp
  | some k => exact tagOk_one (by decide) (by decide) _

/-- C100, for accounts of the common kind: the daemon takes over exactly what the chain says. -/
theorem C100_base_partial (a : BaseAccount) (hn : a.number ≤ u64Max) (hs : a.sequence ≤ u64Max)
    (hl : (write a.fields).length ≤ u64Max) : account (some (some (ChainAccount.base a).any)) = .ok a := by
  have hv : (ChainAccount.base a).any.value = write a.fields := rfl
  obtain ⟨address, pubKey, number, sequence⟩ := a
  have h1 : getStr 1 (BaseAccount.fields ⟨address, pubKey, number, sequence⟩) = some address := getStr_self (by
    rw [BaseAccount.fields, allWith_append, allWith_append, allWith_append, allWith_str_self, allWith_num (by decide),
      allWith_num (by decide), List.append_nil, List.append_nil]
    cases pubKey <;> simp [allWith])
  have h3 : getNum 3 (BaseAccount.fields ⟨address, pubKey, number, sequence⟩) = some number := getNum_self (by
    rw [BaseAccount.fields, allWith_append, allWith_append, allWith_append, allWith_str (by decide), allWith_num_self,
      allWith_num (by decide), List.append_nil]
    cases pubKey <;> simp [allWith])
  have h4 : getNum 4 (BaseAccount.fields ⟨address, pubKey, number, sequence⟩) = some sequence := getNum_self (by
    rw [BaseAccount.fields, allWith_append, allWith_append, allWith_append, allWith_str (by decide), allWith_num (by decide),
      allWith_num_self]
    cases pubKey <;> simp [allWith])
  have h2 : getAny 2 (BaseAccount.fields ⟨address, pubKey, number, sequence⟩) = some pubKey := by
    cases pubKey with
    | none =>
      have : getMany 2 (BaseAccount.fields ⟨address, none, number, sequence⟩) = some [] := getMany_self (l := []) (by
        rw [BaseAccount.fields, allWith_append, allWith_append, allWith_append, allWith_str (by decide),
          allWith_num (by decide), allWith_num (by decide)]
        rfl)
      rw [getAny, getMsg, this]
    | some k =>
      have : getMsg 2 (BaseAccount.fields ⟨address, some k, number, sequence⟩) = some (some k.fields) :=
        getMsg_self (by
          rw [BaseAccount.fields, allWith_append, allWith_append, allWith_append, allWith_str (by decide),
            allWith_num (by decide), allWith_num (by decide)]
          simp [allWith])
          (writable_of (tagOk_any _) (Nat.le_trans (length_mem_write (tag := 2) (by simp [BaseAccount.fields])) hl))
      rw [getAny, this]
      simp only [ofFields_any, Option.map_some]
  rw [account, BaseAccount.decode, hv, fields_of (tagOk_account hn hs) hl]
  simp only [h1, h2, h3, h4]

/-- C100: the full statement fails, as the kind of the account is not looked at: an account with locked tokens is read as if
its number and sequence were 0.  (The account has number 7 and has sent 20 transactions.) -/
theorem C100_kind_unchecked : ¬ AccountRight := by
  intro h
  have := h (.delayedVesting ⟨"axelar1w".toList, none, 7, 20⟩ [⟨"uaxl".toList, 100⟩] 1701990085)
    ⟨[Char.ofNat 10, Char.ofNat 14, Char.ofNat 10, Char.ofNat 8, 'a', 'x', 'e', 'l', 'a', 'r', '1', 'w', Char.ofNat 24,
      Char.ofNat 7, ' ', Char.ofNat 20, Char.ofNat 18, Char.ofNat 11, Char.ofNat 10, Char.ofNat 4, 'u', 'a', 'x', 'l',
      Char.ofNat 18, Char.ofNat 3, '1', '0', '0', '(', Char.ofNat 0x15d, Char.ofNat 0x26b, Char.ofNat 6], none, 0, 0⟩ (by decide +kernel)
  exact absurd this.1 (by decide)

/-! ### Then -/

/-- `ampd/src/lib.rs:104-117`, `commands/mod.rs:84-112`: the broadcaster is built with number and sequence of the account -/
def started (chainId : Str) (key : AccountKey) (denom : Str) (response : Option (Option AnyMsg)) :
    Except AccountErr (Account × Client AnyMsg) :=
  match account response with
  | .error e => .error e
  | .ok b => .ok (⟨chainId, b.number, key, denom⟩, ⟨b.sequence, []⟩)

/-- C100: started with an account of the common kind, the first transaction carries the sequence number that the chain has for
the account, and its signature is for the account number that the chain has. -/
theorem C100_first_partial (chainId : Str) (key : AccountKey) (denom : Str) (acc : BaseAccount) (hn : acc.number ≤ u64Max)
    (hs : acc.sequence ≤ u64Max) (hl : (write acc.fields).length ≤ u64Max) (cfg : BroadcastCfg)
    (hadj : ∀ g, cfg.adjust g ≤ u64Max) (msgs : List AnyMsg) (r : Replies) (sha : ByteList → ByteList)
    (signer : ByteList → Option ByteList) :
    ∃ a c, started chainId key denom (some (some (ChainAccount.base acc).any)) = .ok (a, c) ∧
      ∀ t ∈ (broadcast cfg c msgs r).1.sent, ∀ b, a.submit sha signer t = some b → b.length ≤ u64Max →
        ∃ v doc sig, nodeReads b = some v ∧ v.msgs = msgs ∧ v.signers = [⟨some key.any, 1, acc.sequence⟩] ∧
          nodeSignBytes chainId acc.number b = some doc ∧ signer (sha doc) = some sig ∧ v.signatures = [sig] := by
  refine ⟨⟨chainId, acc.number, key, denom⟩, ⟨acc.sequence, []⟩, by rw [started, C100_base_partial acc hn hs hl], ?_⟩
  intro t ht b hb hlen
  have ht2 : t.sequence = acc.sequence ∧ t.msgs = msgs ∧ t.gas ≤ u64Max := by
    obtain ⟨_, _, new, e1, e2⟩ := broadcasts_bounds cfg hadj [(msgs, r)] ⟨acc.sequence, []⟩ hs
    have e1' : (broadcast cfg ⟨acc.sequence, []⟩ msgs r).1.sent = new := e1
    have hg := (e2 t (e1' ▸ ht)).2.2
    rcases Ampd.broadcast_cases cfg ⟨acc.sequence, []⟩ msgs r with h | ⟨gas, fee, h, -⟩
    · rw [h.1] at ht; simp at ht
    · rw [h] at ht
      simp only [List.nil_append, List.mem_singleton] at ht
      subst ht
      exact ⟨rfl, rfl, hg⟩
  obtain ⟨doc, sig, h1, h2, h3⟩ := C99_node_reads ⟨chainId, acc.number, key, denom⟩ sha signer t b (by omega) ht2.2.2 hb hlen
  refine ⟨_, doc, sig, h3, ht2.2.1, ?_, h1, h2, rfl⟩
  rw [ht2.1]

/-- a key -/
def exKey : AnyMsg := (AccountKey.secp256k1 (2 :: List.replicate 32 17)).any

/-- cases -/
example : account (some (some (ChainAccount.base ⟨"axelar1w".toList, some exKey, 7, 20⟩).any)) =
    .ok ⟨"axelar1w".toList, some exKey, 7, 20⟩ ∧ account none = .error .responseFailed ∧
    account (some none) = .error .accountNotFound ∧ account (some (some ⟨[], [8, 1]⟩)) = .error .malformedResponse := by
  decide +kernel

end Amp.Proto
