import Verif.Wire.ApiSpec
import Verif.Wire.MsgReads

/-!
# C106: clients built on the API packages
-/

namespace Amp.Wire.Api

open Amp.Encoding (Bytes)
open Amp.Router (Lowering ChainName)
open Amp.Ampd (readAll lastWith)

theorem isUpper_iff {c : Char} : isUpper c = true ↔ 'A' ≤ c ∧ c ≤ 'Z' := by
  simp only [isUpper, Bool.and_eq_true, decide_eq_true_eq]; rfl

theorem isLower_iff {c : Char} : isLower c = true ↔ 'a' ≤ c ∧ c ≤ 'z' := by
  simp only [isLower, Bool.and_eq_true, decide_eq_true_eq]; rfl

theorem isDigit_iff {c : Char} : isDigit c = true ↔ '0' ≤ c ∧ c ≤ '9' := by
  simp only [isDigit, Bool.and_eq_true, decide_eq_true_eq]; rfl

theorem digits_iff {s : Str} : digits s = true ↔ s ≠ [] ∧ ∀ c ∈ s, '0' ≤ c ∧ c ≤ '9' := by
  simp only [digits, Bool.and_eq_true, List.all_eq_true, isDigit_iff]
  cases s <;> simp

theorem suffix_iff {s : Str} : suffix s = true ↔
    ∃ dash number : Str, s = dash ++ number ∧ (dash = [] ∨ dash = ['-'] ∧ number ≠ []) ∧ ∀ c ∈ number, '0' ≤ c ∧ c ≤ '9' := by
  constructor
  · intro h
    cases s with
    | nil => exact ⟨[], [], rfl, .inl rfl, by simp⟩
    | cons c t =>
      simp only [suffix] at h
      split at h
      · rename_i hc
        exact ⟨['-'], t, by simp [hc], .inr ⟨rfl, (digits_iff.mp h).1⟩, (digits_iff.mp h).2⟩
      · exact ⟨[], c :: t, rfl, .inl rfl, (digits_iff.mp h).2⟩
  · rintro ⟨dash, number, rfl, hd, hn⟩
    rcases hd with rfl | ⟨rfl, hne⟩
    · cases number with
      | nil => rfl
      | cons c t =>
        have hc : c ≠ '-' := by
          rintro rfl
          exact absurd (hn '-' (by simp)).1 (by decide)
        simp only [List.nil_append, suffix, if_neg hc]
        exact digits_iff.mpr ⟨by simp, hn⟩
    · simp only [List.cons_append, List.nil_append, suffix, if_true]
      exact digits_iff.mpr ⟨hne, hn⟩

theorem small_iff {s : Str} : small s = true ↔
    ∃ letters rest : Str, s = letters ++ rest ∧ (∀ c ∈ letters, 'a' ≤ c ∧ c ≤ 'z') ∧ suffix rest = true := by
  induction s with
  | nil => exact ⟨fun _ => ⟨[], [], rfl, by simp, rfl⟩, fun _ => rfl⟩
  | cons c t ih =>
    simp only [small]
    constructor
    · intro h
      split at h
      · rename_i hc
        obtain ⟨l, r, hl, h1, h2⟩ := ih.mp h
        refine ⟨c :: l, r, by simp [hl], ?_, h2⟩
        intro x hx
        rcases List.mem_cons.mp hx with rfl | hx
        · exact isLower_iff.mp hc
        · exact h1 x hx
      · exact ⟨[], c :: t, rfl, by simp, h⟩
    · rintro ⟨l, r, hl, h1, h2⟩
      cases l with
      | nil =>
        rw [List.nil_append] at hl
        subst hl
        split
        · rename_i hc
          exfalso
          have hc := isLower_iff.mp hc
          simp only [suffix] at h2
          split at h2
          · rename_i he; subst he; exact absurd hc.1 (by decide)
          · have := (digits_iff.mp h2).2 c (by simp)
            exact absurd (Nat.le_trans hc.1 this.2) (by decide)
        · exact h2
      | cons x l =>
        simp only [List.cons_append, List.cons.injEq] at hl
        rw [if_pos (isLower_iff.mpr (hl.1 ▸ h1 x (by simp)))]
        exact ih.mpr ⟨l, r, hl.2, fun y hy => h1 y (by simp [hy]), h2⟩

theorem smallSome_iff {s : Str} : smallSome s = true ↔
    ∃ letters rest : Str, s = letters ++ rest ∧ letters ≠ [] ∧ (∀ c ∈ letters, 'a' ≤ c ∧ c ≤ 'z') ∧ suffix rest = true := by
  cases s with
  | nil =>
    refine Iff.intro (fun h => by cases h) ?_
    rintro ⟨l, r, hl, hne, _⟩
    cases l with
    | nil => exact absurd rfl hne
    | cons _ _ => cases hl
  | cons c t =>
    simp only [smallSome, Bool.and_eq_true]
    constructor
    · rintro ⟨hc, h⟩
      obtain ⟨l, r, hl, h1, h2⟩ := small_iff.mp h
      refine ⟨c :: l, r, by simp [hl], by simp, ?_, h2⟩
      intro x hx
      rcases List.mem_cons.mp hx with rfl | hx
      · exact isLower_iff.mp hc
      · exact h1 x hx
    · rintro ⟨l, r, hl, hne, h1, h2⟩
      cases l with
      | nil => exact absurd rfl hne
      | cons x l =>
        simp only [List.cons_append, List.cons.injEq] at hl
        exact ⟨isLower_iff.mpr (hl.1 ▸ h1 x (by simp)), small_iff.mpr ⟨l, r, hl.2, fun y hy => h1 y (by simp [hy]), h2⟩⟩

/-- The API accepts as names of chains what the comment above its pattern says. -/
theorem C106_name (s : Str) : chainName s = true ↔ Named s := by
  constructor
  · intro h
    cases s with
    | nil => cases h
    | cons c t =>
      simp only [chainName] at h
      split at h
      · rename_i hc
        obtain ⟨l, r, hl, hne, h1, h2⟩ := smallSome_iff.mp h
        obtain ⟨d, n, rfl, h3, h4⟩ := suffix_iff.mp h2
        refine ⟨[c], l, d, n, by simp [hl], by simp, ?_, hne, h1, h3, h4⟩
        intro x hx
        rw [List.mem_singleton.mp hx]
        exact isUpper_iff.mp hc
      · obtain ⟨l, r, hl, hne, h1, h2⟩ := smallSome_iff.mp h
        obtain ⟨d, n, rfl, h3, h4⟩ := suffix_iff.mp h2
        exact ⟨[], l, d, n, by simp [hl], by simp, by simp, hne, h1, h3, h4⟩
  · rintro ⟨u, l, d, n, rfl, hu, hu', hne, h1, h3, h4⟩
    have hs : smallSome (l ++ (d ++ n)) = true := smallSome_iff.mpr ⟨l, d ++ n, rfl, hne, h1, suffix_iff.mpr ⟨d, n, rfl, h3, h4⟩⟩
    match u, hu with
    | [], _ =>
      cases l with
      | nil => exact absurd rfl hne
      | cons c l =>
        have hc : ¬ isUpper c = true := fun hc => by
          have h := (isUpper_iff.mp hc).2
          have h' := (h1 c (by simp)).1
          exact absurd (Nat.le_trans h' h) (by decide)
        simp only [List.nil_append, List.cons_append, List.append_assoc, chainName] at hs ⊢
        rw [if_neg hc]; exact hs
    | [c], _ =>
      simp only [List.cons_append, List.nil_append, List.append_assoc, chainName]
      rw [if_pos (isUpper_iff.mpr (hu' c (by simp)))]; exact hs

theorem Named.ascii {s : Str} (h : Named s) : s ≠ [] ∧ ∀ c ∈ s, c.toNat < 128 ∧ c ≠ ':' := by
  obtain ⟨u, l, d, n, rfl, hu, hu', hne, h1, h3, h4⟩ := h
  refine ⟨by simp [hne], ?_⟩
  intro c hc
  simp only [List.mem_append] at hc
  have hi : ∀ lo hi : Char, hi.toNat < 128 → (':'.toNat < lo.toNat ∨ hi.toNat < ':'.toNat) → lo ≤ c → c ≤ hi →
      c.toNat < 128 ∧ c ≠ ':' := by
    intro lo hi h5 h6 h7 h8
    have h7 : lo.toNat ≤ c.toNat := h7
    have h8 : c.toNat ≤ hi.toNat := h8
    refine ⟨by omega, ?_⟩
    rintro rfl
    omega
  rcases hc with ((hc | hc) | hc) | hc
  · exact hi 'A' 'Z' (by decide) (by decide) (hu' c hc).1 (hu' c hc).2
  · exact hi 'a' 'z' (by decide) (by decide) (h1 c hc).1 (h1 c hc).2
  · rcases h3 with rfl | ⟨rfl, _⟩
    · simp at hc
    · rw [List.mem_singleton.mp hc]; decide
  · exact hi '0' '9' (by decide) (by decide) (h4 c hc).1 (h4 c hc).2

/-- The contracts read every name of the API, as the same name in small letters; and two names are the same to the API
exactly if they are the same chain to the contracts. -/
theorem C106_same_chain {L : Lowering} (hL : OnAscii L) {a b : Str} (ha : Named a) (hb : Named b) :
    Wire.asName L (.str a) = some (a.map Char.toLower) ∧
      (sameName L a b = true ↔ Wire.asName L (.str a) = Wire.asName L (.str b)) := by
  have key : ∀ s, Named s → Wire.asName L (.str s) = some (s.map Char.toLower) := by
    intro s hs
    have := hs.ascii
    show ChainName.parse L s = _
    rw [ChainName.parse, if_neg, hL s (fun c hc => (this.2 c hc).1)]
    rintro (h | h)
    · exact (this.2 _ h).2 rfl
    · exact this.1 h
  refine ⟨key a ha, ?_⟩
  rw [key a ha, key b hb, sameName, hL a (fun c hc => (ha.ascii.2 c hc).1), hL b (fun c hc => (hb.ascii.2 c hc).1)]
  simp

/-- Names of the API that are the same chain differ at most in the first letter. -/
theorem C106_capital {L : Lowering} (hL : OnAscii L) {a b : Str} (ha : Named a) (hb : Named b)
    (h : sameName L a b = true) : a.tail = b.tail := by
  have low : ∀ s, Named s → s.tail.map Char.toLower = s.tail := by
    rintro s ⟨u, l, d, n, rfl, hu, hu', hne, h1, h3, h4⟩
    have hc : ∀ c ∈ l ++ d ++ n, c.toLower = c := by
      intro c hc
      unfold Char.toLower
      rw [dif_neg]
      rintro ⟨h5, h6⟩
      have h5 : 'A'.toNat ≤ c.toNat := h5
      have h6 : c.toNat ≤ 'Z'.toNat := h6
      simp only [List.mem_append] at hc
      rcases hc with (hc | hc) | hc
      · exact absurd (Nat.le_trans (h1 c hc).1 h6) (by decide)
      · rcases h3 with rfl | ⟨rfl, _⟩
        · simp at hc
        · rw [List.mem_singleton.mp hc] at h5; exact absurd h5 (by decide)
      · exact absurd (Nat.le_trans h5 (h4 c hc).2) (by decide)
    have all : ∀ t : Str, (∀ c ∈ t, c ∈ l ++ d ++ n) → t.map Char.toLower = t := by
      intro t ht
      have : t.map Char.toLower = t.map (fun c => c) := List.map_congr_left (fun c hct => hc c (ht c hct))
      rw [this, List.map_id']
    match u, hu with
    | [], _ =>
      refine all _ (fun c hcm => ?_)
      have := List.mem_of_mem_tail hcm
      simpa using this
    | [x], _ => exact all _ (fun c hcm => by simpa using hcm)
  have h' : a.map Char.toLower = b.map Char.toLower := by
    have := (C106_same_chain hL ha hb).2.mp h
    rw [(C106_same_chain hL ha hb).1, (C106_same_chain hL hb ha).1] at this
    exact Option.some.inj this
  have := congrArg List.tail h'
  rw [← List.map_tail, ← List.map_tail, low a ha, low b hb] at this
  exact this

/-! ### Read back -/

theorem asName_named {s : Str} (h : Named s) : asName (.str s) = some s := by
  simp only [asName, asStr, (C106_name s).mpr h, if_true]

theorem asMessage_json {m : Message} (h : MessageOk m) : asMessage (jsonMessage m) = some m := by
  have e : asMessage (jsonMessage m) =
      match asStr (.str m.id), asName (.str m.sourceChain), asText (.str m.sourceAddress), asName (.str m.destinationChain),
        asText (.str m.destinationAddress), asBytes32 (.arr (m.payloadHash.map .nat)) with
      | some id, some sc, some sa, some dc, some da, some h => some ⟨id, sc, sa, dc, da, h⟩
      | _, _, _, _, _, _ => none := rfl
  have e2 : asBytes32 (.arr (m.payloadHash.map .nat)) = some m.payloadHash := by
    rw [asBytes32, asBytes_json h.bytes]; simp only [h.length, if_true]
  rw [e, asName_named h.source, asName_named h.destination, asText_str h.sourceAddress, asText_str h.destinationAddress, e2]
  rfl

theorem asMessages_json {ms : List Message} (h : ∀ m ∈ ms, MessageOk m) : asVec asMessage (jsonMessages ms) = some ms :=
  asVec_map (fun m hm => asMessage_json (h m hm))

theorem fits_message (m : Message) (h : MessageOk m) {d : Nat} (hd : 3 ≤ d) : (jsonMessage m).Fits d := by
  have h1 := fits_bytes h.bytes (d := d - 1) (by omega)
  have h2 : 2 ≤ d := by omega
  have h3 : ∀ s, (Json.str s).Fits (d - 1) := fun s => by simp [Json.Fits]
  rw [jsonMessage, Json.Fits]
  simp only [Json.FitsFields, Json.FitsField, h1, h2, h3, and_self]

theorem fits_messages {ms : List Message} (h : ∀ m ∈ ms, MessageOk m) {d : Nat} (hd : 4 ≤ d) : (jsonMessages ms).Fits d := by
  rw [jsonMessages, Json.Fits]
  exact ⟨by omega, fitsAll_map (fun m hm => fits_message m (h m hm) (by omega))⟩

theorem fits_router {m : RouterMsg} (h : RouterOk m) : (jsonRouter m).Fits 128 := by
  cases m with
  | routeMessages ms =>
    have := fits_messages (ms := ms) h (d := 127) (by omega)
    simp only [jsonRouter, Json.Fits, Json.FitsFields, Json.FitsField, this]
    exact ⟨by omega, trivial, trivial⟩
  | _ => simp [jsonRouter, Json.Fits, Json.FitsFields, Json.FitsField]

theorem fits_gateway {m : GatewayMsg} (h : GatewayOk m) : (jsonGateway m).Fits 128 := by
  cases m with
  | verifyMessages ms =>
    have := fits_messages (ms := ms) h (d := 127) (by omega)
    simp only [jsonGateway, Json.Fits, Json.FitsFields, Json.FitsField, this]
    exact ⟨by omega, trivial, trivial⟩
  | routeMessages ms =>
    have := fits_messages (ms := ms) h (d := 127) (by omega)
    simp only [jsonGateway, Json.Fits, Json.FitsFields, Json.FitsField, this]
    exact ⟨by omega, trivial, trivial⟩

/-- Clients built on the API packages read what clients built on them write. -/
theorem C106_clients (finite : Str → Bool) :
    (∀ m, RouterOk m → (fromStr finite (jsonRouter m).render).bind readRouter = some m) ∧
      ∀ m, GatewayOk m → (fromStr finite (jsonGateway m).render).bind readGateway = some m := by
  constructor
  · intro m h
    rw [fromStr_render finite (fits_router h), Option.bind_some]
    cases m with
    | registerChain c g =>
      rw [jsonRouter, readRouter]
      at_variant
      rw [two_some (by decide) (asName_named h.1) (asText_str h.2)]; rfl
    | upgradeGateway c g =>
      rw [jsonRouter, readRouter]
      at_variant
      rw [two_some (by decide) (asName_named h.1) (asText_str h.2)]; rfl
    | freezeChain c d =>
      rw [jsonRouter, readRouter]
      at_variant
      rw [two_some (by decide) (asName_named h) (asDirection_json d)]; rfl
    | unfreezeChain c d =>
      rw [jsonRouter, readRouter]
      at_variant
      rw [two_some (by decide) (asName_named h) (asDirection_json d)]; rfl
    | routeMessages ms =>
      rw [jsonRouter, readRouter]
      at_variant
      rw [asMessages_json h]; rfl
  · intro m h
    rw [fromStr_render finite (fits_gateway h), Option.bind_some]
    cases m with
    | verifyMessages ms =>
      rw [jsonGateway, readGateway]
      at_variant
      rw [asMessages_json h]; rfl
    | routeMessages ms =>
      rw [jsonGateway, readGateway]
      at_variant
      rw [asMessages_json h]; rfl

/-! ### Read by the contracts -/

theorem two_none {α β : Type} {n m : Str} (hn : n ≠ m) {f : Json → Option α} {g : Json → Option β} {a b : Json} {x : α}
    (hf : f a = some x) (hg : g b = none) : two n m f g (.obj [(n, a), (m, b)]) = none := by
  simp [two, structOf, distinct, lastWith, hf, hg, hn, Ne.symm hn]

theorem oneOf_here {α : Type} {f : Json → Option α} {t : List (Json → Option α)} {j : Json} (h : oneOf t j = none) :
    oneOf (f :: t) j = f j := by
  simp only [oneOf]
  split
  · rename_i a ha; exact ha.symm
  · rename_i ha; rw [h, ha]

/-- The router reads what a client asks it to do about chains as it was meant: the partial claim, for messages that carry
no cross-chain messages.  Missing: those that do (`C106_refused`). -/
theorem C106_admin_partial (G : Texture) (hL : OnAscii G.L) {m : RouterMsg} (h : RouterOk m)
    (hm : ∀ ms, m = .routeMessages ms → ms = []) :
    readFor G .router (jsonRouter m).render = (asked G.T m).map tagRouter := by
  rw [readFor, fromStr_render G.finite (fits_router h), Option.bind_some, readAs]
  have nm : ∀ c, Named c → Wire.asName G.L (.str c) = some (c.map Char.toLower) := fun c hc => (C106_same_chain hL hc hc).1
  cases m with
  | registerChain c g =>
    have : Wire.readRouter G.L G.T (jsonRouter (.registerChain c g)) = asked G.T (.registerChain c g) := by
      rw [jsonRouter, Wire.readRouter, oneOf_here rfl, onVariant_self, asked]
      cases hp : G.T.parse g with
      | none => rw [two_none (by decide) (nm c h.1) (show asAddr G.T (.str g) = none from hp)]; rfl
      | some a => rw [two_some (by decide) (nm c h.1) (show asAddr G.T (.str g) = some a from hp)]; rfl
    rw [this]
  | upgradeGateway c g =>
    have : Wire.readRouter G.L G.T (jsonRouter (.upgradeGateway c g)) = asked G.T (.upgradeGateway c g) := by
      rw [jsonRouter, Wire.readRouter, oneOf_tail (onVariant_other (by decide) _ _), oneOf_here rfl, onVariant_self, asked]
      cases hp : G.T.parse g with
      | none => rw [two_none (by decide) (nm c h.1) (show asAddr G.T (.str g) = none from hp)]; rfl
      | some a => rw [two_some (by decide) (nm c h.1) (show asAddr G.T (.str g) = some a from hp)]; rfl
    rw [this]
  | freezeChain c d =>
    have : Wire.readRouter G.L G.T (jsonRouter (.freezeChain c d)) = asked G.T (.freezeChain c d) := by
      rw [jsonRouter, Wire.readRouter]
      at_variant
      rw [two_some (by decide) (nm c h) (asDirection_json d)]; rfl
    rw [this]
  | unfreezeChain c d =>
    have : Wire.readRouter G.L G.T (jsonRouter (.unfreezeChain c d)) = asked G.T (.unfreezeChain c d) := by
      rw [jsonRouter, Wire.readRouter]
      at_variant
      rw [two_some (by decide) (nm c h) (asDirection_json d)]; rfl
    rw [this]
  | routeMessages ms =>
    have := hm ms rfl
    subst this
    rfl

theorem asMessage_refuses (L : Lowering) (m : Message) : Wire.asMessage L (jsonMessage m) = none := rfl

theorem asNexusMsg_refuses (L : Lowering) (m : Message) : asNexusMsg L (jsonMessage m) = none := rfl

theorem asMessages_refuses (L : Lowering) {ms : List Message} (h : ms ≠ []) :
    asVec (Wire.asMessage L) (jsonMessages ms) = none := by
  cases ms with
  | nil => exact absurd rfl h
  | cons m t => rfl

/-- No contract reads any message of a client that carries cross-chain messages. -/
theorem C106_refused (G : Texture) (p : Party) {ms : List Message} (hne : ms ≠ []) (h : ∀ m ∈ ms, MessageOk m) :
    readFor G p (jsonRouter (.routeMessages ms)).render = none ∧
      readFor G p (jsonGateway (.routeMessages ms)).render = none ∧
      readFor G p (jsonGateway (.verifyMessages ms)).render = none := by
  have key : ∀ j : Json, j.Fits 128 → readAs G.L G.T p j = none → readFor G p j.render = none := by
    intro j hj hr
    rw [readFor, fromStr_render G.finite hj, Option.bind_some, hr]
  refine ⟨key _ (fits_router (m := .routeMessages ms) h) ?_, key _ (fits_gateway (m := .routeMessages ms) h) ?_,
    key _ (fits_gateway (m := .verifyMessages ms) h) ?_⟩ <;>
  · cases ms with
    | nil => exact absurd rfl hne
    | cons m t => cases p <;> rfl

/-- Nor does a client read any message that carries cross-chain messages as the contracts write them. -/
theorem C106_not_read (finite : Str → Bool) (T : Texts) (u : Unread) {ms : List Router.Message} (hne : ms ≠ []) :
    (fromStr finite (jsonOf T u (.route ms)).render).bind readRouter = none ∧
      (fromStr finite (jsonOf T u (.route ms)).render).bind readGateway = none ∧
      (fromStr finite (jsonOf T u (.gateway (.verifyMessages ms))).render).bind readGateway = none := by
  have hf := Wire.fits_messages ms (d := 127) (by omega)
  have key : ∀ k : Str, (Json.obj [(k, Wire.jsonMessages ms)]).Fits 128 := by
    intro k
    simp only [Json.Fits, Json.FitsFields, Json.FitsField, hf]
    exact ⟨by omega, trivial, trivial⟩
  simp only [jsonOf, Wire.jsonGateway, fromStr_render finite (key _), Option.bind_some]
  cases ms with
  | nil => exact absurd rfl hne
  | cons m t => exact ⟨rfl, rfl, rfl⟩

/-- There are chains that contracts know and no client can name. -/
theorem C106_unnameable (L : Lowering) (hL : OnAscii L) :
    ∃ c : ChainName, c.Valid L ∧ ∀ s, Named s → Wire.asName L (.str s) ≠ some c := by
  refine ⟨"10".toList, ⟨by decide, by decide, ?_⟩, ?_⟩
  · rw [hL _ (by decide)]; decide
  · intro s hs h
    rw [(C106_same_chain hL hs hs).1] at h
    have h := Option.some.inj h
    obtain ⟨u, l, d, n, rfl, _, _, hne, h1, _⟩ := hs
    cases l with
    | nil => exact hne rfl
    | cons c l =>
      have hc := h1 c (by simp)
      have hm : c.toLower ∈ "10".toList := by
        rw [← h]; exact List.mem_map.mpr ⟨c, by simp, rfl⟩
      have e : c.toLower = c := by
        unfold Char.toLower
        rw [dif_neg]
        rintro ⟨_, h6⟩
        exact absurd (Nat.le_trans hc.1 (show c.toNat ≤ 'Z'.toNat from h6)) (by decide)
      rw [e] at hm
      simp only [show "10".toList = ['1', '0'] from rfl, List.mem_cons, List.not_mem_nil, or_false] at hm
      rcases hm with rfl | rfl
      · exact absurd hc.1 (by decide)
      · exact absurd hc.1 (by decide)

end Amp.Wire.Api
