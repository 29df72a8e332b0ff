import Verif.Pasta.JsonLemmas
import Verif.Props.Pasta3

/-!
# C119, C120: Mina messages as bytes; what a signature says about the bytes

`newMinaMessage` is `NewMinaMessage` with encoding/json modelled (Verif/Pasta/Json.lean), in place of the parameter `parse`.
-/

namespace Verif.Props

open Verif.EC Verif.ECDSA Verif.Pasta Verif.Api

variable {E : Env} {draws : List Bytes}

/-! ## C119 -/

/-- C119: `NewMinaMessage` reads what `ToBytes` writes, for every message (any words, any lengths, nil slices included), also with white
space after it; hence `ToBytes` is injective. -/
theorem C119_roundtrip (m m' : MinaMessage) (a b a' b' : Bool) (u : Bytes) (hu : ∀ c ∈ u, c = 32 ∨ c = 9 ∨ c = 10 ∨ c = 13) :
    newMinaMessage (m.toBytes a b ++ u) = some m ∧ newMinaMessage (m.toBytes a b) = some m ∧ (m.toBytes a b = m'.toBytes a' b' → m = m') := by
  have hs : u.all isSpace = true := by
    rw [List.all_eq_true]
    intro c hc
    rcases hu c hc with rfl | rfl | rfl | rfl <;> decide
  have key : ∀ (m : MinaMessage) (a b : Bool) (u : Bytes), u.all isSpace = true → newMinaMessage (m.toBytes a b ++ u) = some m := by
    intro m a b u h
    rw [newMinaMessage, jsonText_toBytes a b m u h]
    exact assigns_body a b m
  have key0 : ∀ (m : MinaMessage) (a b : Bool), newMinaMessage (m.toBytes a b) = some m := by
    intro m a b
    have := key m a b [] rfl
    rwa [List.append_nil] at this
  refine ⟨key m a b u hs, key0 m a b, fun h => ?_⟩
  have h1 := key0 m a b
  rw [h, key0 m' a' b'] at h1
  exact (Option.some_inj.mp h1).symm

/-- C119: with encoding/json as modelled, `Signature` of `m.ToBytes()` succeeds exactly for 32-byte keys with the two top bits clear, and
`Verify` of `m.ToBytes()` decides the Schnorr equation for the challenge of the message `m` (the case `s·G = -e·Q ≠ 0` of C70 excluded). -/
theorem C119_api_partial (hE : PastaEnv E newMinaMessage draws) (hex : ∃ b ∈ draws, beNat b % 2 ^ 250 ≠ 0) (m : MinaMessage) (na nb : Bool)
    (d : Bytes) (ID : Option Bytes) (rnd : List Bytes) :
    (d.length = 32 ∧ beNat d < 2 ^ 254 → ∃ sig, signature E d ID (m.toBytes na nb) PST rnd = some (.ret (sig, 0, SUCCESS)) ∧ sig.length = 64) ∧
      (¬ (d.length = 32 ∧ beNat d < 2 ^ 254) → signature E d ID (m.toBytes na nb) PST rnd = some (.ret ([], 0, FAILURE))) ∧
      (∀ (pub sig : Bytes) (Q : Pt) (M : Message) (e r s : ℕ), PastaKey pub Q → MsgOk m M → r = beNat (sig.take 32) → s = beNat (sig.drop 32) →
        e = challenge M Q (r : ZMod c.p) → (s • good.G = 0 ∨ s • good.G ≠ -(e • Q)) →
        (Api.verify E pub ID (m.toBytes na nb) sig PST = .ret SUCCESS ↔ sig.length = 64 ∧ Schnorr Q e r s)) := by
  have hm : newMinaMessage (m.toBytes na nb) = some m := (C119_roundtrip m m na nb na nb [] (by simp)).2.1
  have h := C55_signature hE hex d (m.toBytes na nb) ID rnd
  refine ⟨fun hd => h.1 ⟨hd.1, hd.2, by rw [hm]; rfl⟩, fun hd => h.2 (fun hc => hd ⟨hc.1, hc.2.1⟩), ?_⟩
  intro pub sig Q M e r s hp hM hr hs he hne
  exact (C70_verify_partial hE pub _ sig ID Q hp m hm M hM e r s hr hs he hne).1

/-- the empty text is not a message, as `PastaEnv` asks. -/
theorem newMinaMessage_nil : newMinaMessage [] = none := rfl

example (E : Env) : PastaEnv { E with
    pasta := scheme newMinaMessage [be32 7],
    pastaMulBaseAdd := fun a b => dropErr (Pasta.pointMulBaseGAdd a b), pastaAdd := fun a b => dropErr (Pasta.pointAdd a b),
    pastaMul := fun a b => dropErr (Pasta.pointMul a b), pastaDecompress := Pasta.pointDecompress } newMinaMessage [be32 7] :=
  ⟨rfl, rfl, rfl, rfl, rfl, by simp; exact be32_length (by decide), newMinaMessage_nil⟩

/-! ## C120: is a signature bound to the message? -/

/-- a point with an x-coordinate other than 0 and an even y-coordinate is determined by the x-coordinate. -/
theorem even_point {P P' : Pt} (hx : xval P = xval P') (h0 : xval P ≠ 0) (hy : yval P % 2 = 0) (hy' : yval P' % 2 = 0) : P = P' := by
  cases P with
  | zero => exact absurd rfl h0
  | some x y hn =>
    cases P' with
    | zero => rw [hx] at h0; exact absurd rfl h0
    | some x' y' hn' =>
      have e1 : x.val = x'.val := hx
      obtain rfl : x = x' := ZMod.val_injective _ e1
      have e2 : y = y' := by
        rcases WeierstrassCurve.Affine.Y_eq_of_X_eq hn.1 hn'.1 rfl with h | h
        · exact h
        · have e : c.W.negY x y' = -y' := by simp [WeierstrassCurve.Affine.negY, Params.W, sw]
          rw [e] at h
          have a : y.val % 2 = 0 := hy
          have b : y'.val % 2 = 0 := hy'
          by_cases z : y' = 0
          · rw [h, z, neg_zero]
          · have : NeZero y' := ⟨z⟩
            rw [h, ZMod.val_neg_of_ne_zero] at a
            have h1 := ZMod.val_lt y'
            have h3 := p_odd
            omega
      subst e2
      rfl

/-- what is accepted with `r` not 0 satisfies the Schnorr equation, without exception. -/
theorem accepted_schnorr {parse : Bytes → Option MinaMessage} (hE : PastaEnv E parse draws) {pub t sig : Bytes} {ID : Option Bytes} {Q : Pt} (hp : PastaKey pub Q)
    {m : MinaMessage} (hm : parse t = some m) {M : Message} (hM : MsgOk m M) {r : ℕ} (hr : r = beNat (sig.take 32)) (h0 : r % c.p ≠ 0)
    (h : Api.verify E pub ID t sig PST = .ret SUCCESS) : Schnorr Q (challenge M Q (r : ZMod c.p)) r (beNat (sig.drop 32)) := by
  have hl : sig.length = 64 := by
    by_contra hl
    rw [C70_reject hE pub t sig ID (.inr (.inr hl))] at h
    exact absurd (ret_inj.mp h) (by decide)
  by_cases hne : beNat (sig.drop 32) • good.G = 0 ∨ beNat (sig.drop 32) • good.G ≠ -(challenge M Q (r : ZMod c.p) • Q)
  · exact ((C70_verify_partial hE pub t sig ID Q hp m hm M hM _ r _ hr rfl rfl hne).1.mp h).2
  · rw [not_or, not_not] at hne
    rcases C70_excluded hE pub t sig ID Q hp m hm M hM _ r _ hl hr rfl rfl hne.1 hne.2 with h' | h'
    · rw [h, ret_inj] at h'
      by_contra hc
      rw [if_neg hc] at h'
      exact absurd h' (by decide)
    · rw [h, ret_inj, if_neg h0] at h'
      exact absurd h' (by decide)

/-- C120 (partial): a signature whose `r` is not 0 and a key other than infinity determine the challenge modulo the group order: all texts for which
`Verify` accepts them, whatever they look like, have messages with that challenge.  So another message has to be a collision of the hash
(modulo the order); that there is none is false, see below. -/
theorem C120_partial (hE : PastaEnv E newMinaMessage draws) (pub t t' sig : Bytes) (ID ID' : Option Bytes) (Q : Pt) (hp : PastaKey pub Q) (hQ : Q ≠ 0)
    (m m' : MinaMessage) (hm : newMinaMessage t = some m) (hm' : newMinaMessage t' = some m') (M M' : Message) (hM : MsgOk m M) (hM' : MsgOk m' M')
    (r : ℕ) (hr : r = beNat (sig.take 32)) (h0 : r % c.p ≠ 0) (h : Api.verify E pub ID t sig PST = .ret SUCCESS)
    (h' : Api.verify E pub ID' t' sig PST = .ret SUCCESS) : challenge M Q (r : ZMod c.p) ≡ challenge M' Q (r : ZMod c.p) [MOD c.n] := by
  have s1 := accepted_schnorr hE hp hm hM hr h0 h
  have s2 := accepted_schnorr hE hp hm' hM' hr h0 h'
  generalize challenge M Q (r : ZMod c.p) = e at *
  generalize challenge M' Q (r : ZMod c.p) = e' at *
  have hpt := even_point (s1.1.trans s2.1.symm) (by rw [s1.1]; exact h0) s1.2 s2.2
  have he : e • Q = e' • Q := sub_right_injective hpt
  have := (nsmul_eq_nsmul_iff_modEq (x := Q)).mp he
  rwa [order_of Q hQ] at this

/-- C120 is false for the bytes: a member with a key that is none of the three names can be added to the text of any message (here a number
at the start); the text is another one, the message read is the same, and so is the result of `Verify` for every key and signature. -/
theorem C120_false_member (hE : PastaEnv E newMinaMessage draws) (m : MinaMessage) (na nb : Bool) (k : Bytes) (w : UInt64)
    (hk : ∀ x ∈ k, 97 ≤ x ∧ x ≤ 122) (h1 : k ≠ "spongeiv".toUTF8.toList) (h2 : k ≠ "transactionprefix".toUTF8.toList)
    (h3 : k ≠ "transactionsuffix".toUTF8.toList) :
    ∃ txt, txt ≠ m.toBytes na nb ∧ (∃ pre post, txt = pre ++ 34 :: (k ++ 34 :: 58 :: (dec w ++ post))) ∧
      newMinaMessage txt = newMinaMessage (m.toBytes na nb) ∧
      ∀ (pub sig : Bytes) (ID : Option Bytes), Api.verify E pub ID txt sig PST = Api.verify E pub ID (m.toBytes na nb) sig PST := by
  have hpl : plain k = true := by
    rw [plain, List.all_eq_true]
    intro x hx
    obtain ⟨a, b⟩ := hk x hx
    rw [UInt8.le_iff_toNat_le] at a b
    have a' : 97 ≤ x.toNat := a
    have b' : x.toNat ≤ 122 := b
    have n34 : x ≠ 34 := fun h => by rw [h] at a'; revert a'; decide
    have n92 : x ≠ 92 := fun h => by rw [h] at a'; revert a'; decide
    simp only [Bool.not_eq_true', Bool.or_eq_false_iff, beq_eq_false_iff_ne, decide_eq_false_iff_not, UInt8.lt_iff_toNat_lt,
      UInt8.le_iff_toNat_le]
    refine ⟨⟨⟨n34, ?_⟩, n92⟩, ?_⟩
    · show ¬ x.toNat < 32; omega
    · show ¬ 128 ≤ x.toNat; omega
  have hlow : lower k = k := by
    rw [lower]
    conv_rhs => rw [← List.map_id k]
    apply List.map_congr_left
    intro x hx
    obtain ⟨a, b⟩ := hk x hx
    rw [if_neg]
    · rfl
    · rintro ⟨_, c⟩
      rw [UInt8.le_iff_toNat_le] at a c
      have a' : 97 ≤ x.toNat := a
      have c' : x.toNat ≤ 90 := c
      omega
  have l1 : lower keyPre = "transactionprefix".toUTF8.toList := by decide +kernel
  have l2 : lower keySuffix = "transactionsuffix".toUTF8.toList := by decide +kernel
  have l3 : lower keyIV = "spongeiv".toUTF8.toList := by decide +kernel
  have hnew : newMinaMessage (withMember k w na nb m) = some m := by
    rw [newMinaMessage, jsonText_withMember k hpl]
    dsimp only
    rw [assigns, assign, hlow, l1, if_neg h2, l2, if_neg h3, l3, if_neg h1]
    exact assigns_body na nb m
  have hm : newMinaMessage (m.toBytes na nb) = some m := (C119_roundtrip m m na nb na nb [] (by simp)).2.1
  refine ⟨withMember k w na nb m, ?_, ⟨[123], 44 :: body na nb m, by simp [withMember, member]⟩, by rw [hnew, hm], ?_⟩
  · intro h
    have := congrArg List.length h
    have e : m.toBytes na nb = 123 :: body na nb m := rfl
    rw [e] at this
    simp only [withMember, member, List.length_cons, List.length_append] at this
    omega
  · intro pub sig ID
    rw [verify_pasta hE, verify_pasta hE]
    unfold Pasta.verify
    rw [hnew, hm]

/-- `amount` is such a key. -/
example : ∀ x ∈ ("amount".toUTF8.toList : Bytes), 97 ≤ x ∧ x ≤ 122 := by decide +kernel

/-! a signature that is accepted: the key 1, the nonce -1 (so that R has an even ordinate), the message with no fields and the initial state (0, 1, 0). -/

def okY : ℕ := 0x1b74b5a30a12937c53dfa9f06378ee548f655bd4333d477119cf7a23caed2abb
def okE : ℕ := hashN (0, 1, 0) 1 okY 1
def okS : ℕ := okE + (c.n - 1)

theorem okE_facts : okE < c.p ∧ okS < 256 ^ 32 ∧ (c.p - okY) % 2 = 0 ∧ ¬ c.n ∣ okS + okE := by decide +kernel

theorem okG : xval (1 • good.G) = 1 ∧ yval (1 • good.G) = okY := coords (by decide +kernel)
theorem okN : xval ((c.n - 1) • good.G) = 1 ∧ yval ((c.n - 1) • good.G) = c.p - okY := coords (by decide +kernel)

attribute [irreducible] okY okE

theorem ok_challenge : challenge ⟨(0, 1, 0), [], []⟩ good.G ((1 : ℕ) : ZMod c.p) = okE := by
  have hg := okG
  rw [one_nsmul] at hg
  unfold challenge
  rw [hg.1, hg.2]
  have e : ((0, 1, 0) : PoseidonSpec.F × PoseidonSpec.F × PoseidonSpec.F) = PoseidonSpec.el (0, 1, 0) := by simp [PoseidonSpec.el]
  have h := hashN_eq (0, 1, 0) 1 okY 1
  show (PoseidonSpec.hash (0, 1, 0) [((1 : ℕ) : PoseidonSpec.F), ((okY : ℕ) : PoseidonSpec.F), ((1 : ℕ) : PoseidonSpec.F)]).val = okE
  rw [e, h, show hashN (0, 1, 0) 1 okY 1 = okE by unfold okE; rfl]
  exact ZMod.val_natCast_of_lt okE_facts.1

/-- the hypotheses of `C120_partial` are met, by the text of a message and the text with a member added. -/
example (hE : PastaEnv E newMinaMessage draws) : ∃ (t t' sig : Bytes) (m : MinaMessage) (M : Message), t ≠ t' ∧ newMinaMessage t = some m ∧
    newMinaMessage t' = some m ∧ MsgOk m M ∧ PastaKey (wire good.G) good.G ∧ good.G ≠ 0 ∧ beNat (sig.take 32) % c.p ≠ 0 ∧
    Api.verify E (wire good.G) none t sig PST = .ret SUCCESS ∧ Api.verify E (wire good.G) none t' sig PST = .ret SUCCESS := by
  obtain ⟨f1, f2, f3, f4⟩ := okE_facts
  have hg := okG
  rw [one_nsmul] at hg
  have hG : good.G ≠ 0 := by
    intro h
    rw [h] at hg
    exact absurd hg.1 (by simp [xval])
  have hm : newMinaMessage ((⟨[], [], fieldZero, fieldOne, fieldZero⟩ : MinaMessage).toBytes true true) = some ⟨[], [], fieldZero, fieldOne, fieldZero⟩ :=
    (C119_roundtrip _ ⟨[], [], fieldZero, fieldOne, fieldZero⟩ true true true true [] (by simp)).2.1
  have hM : MsgOk ⟨[], [], fieldZero, fieldOne, fieldZero⟩ ⟨(0, 1, 0), [], []⟩ := ⟨el_zero, el_one, el_zero, .nil, .nil⟩
  have hk : PastaKey (wire good.G) good.G := .inl (wire_reads _)
  have l1 : (be32 1).length = 32 := be32_length (by norm_num)
  have l2 : (be32 okS).length = 32 := be32_length f2
  have t1 : beNat ((be32 1 ++ be32 okS).take 32) = 1 := by rw [List.take_left' l1, beNat_be32]
  have t2 : beNat ((be32 1 ++ be32 okS).drop 32) = okS := by rw [List.drop_left' l1, beNat_be32]
  have hv := (C70_verify_partial hE (wire good.G) _ (be32 1 ++ be32 okS) none good.G hk _ hm _ hM okE 1 okS t1.symm t2.symm
    ok_challenge.symm (.inr (by
      intro h
      rw [eq_neg_iff_add_eq_zero, ← add_nsmul, smul_eq_zero_iff _ _ hG] at h
      exact f4 h))).1.mpr
    ⟨by rw [List.length_append, l1, l2], by
      have e : okS • good.G - okE • good.G = (c.n - 1) • good.G := by unfold okS; rw [add_nsmul, add_sub_cancel_left]
      unfold Schnorr
      rw [e, okN.1, okN.2]
      exact ⟨rfl, f3⟩⟩
  obtain ⟨t', n1, -, n2, n3⟩ := C120_false_member hE ⟨[], [], fieldZero, fieldOne, fieldZero⟩ true true "amount".toUTF8.toList 5 (by decide +kernel)
    (by decide +kernel) (by decide +kernel) (by decide +kernel)
  refine ⟨_, t', be32 1 ++ be32 okS, _, _, n1.symm, hm, n2.trans hm, hM, hk, hG, by rw [t1]; decide, hv, (n3 _ _ _).trans hv⟩

/-- the sponge does not see a zero after an odd number of elements. -/
theorem sponge_zero (perm : PoseidonSpec.F × PoseidonSpec.F × PoseidonSpec.F → PoseidonSpec.F × PoseidonSpec.F × PoseidonSpec.F) :
    ∀ (s : PoseidonSpec.F × PoseidonSpec.F × PoseidonSpec.F) (xs : List PoseidonSpec.F), xs.length % 2 = 1 →
      PoseidonSpec.sponge perm s (xs ++ [0]) = PoseidonSpec.sponge perm s xs
  | s, [], h => by simp at h
  | s, [x], _ => by
    rw [List.singleton_append, PoseidonSpec.sponge, PoseidonSpec.sponge, add_zero]
  | s, [x, y], h => by simp at h
  | s, x :: y :: z :: rest, h => by
    simp only [List.cons_append]
    rw [PoseidonSpec.sponge, PoseidonSpec.sponge, ← List.cons_append, sponge_zero perm _ (z :: rest) (by simp only [List.length_cons] at h ⊢; omega)]

/-- C120 is false for the message: when the two parts of a message have an even number of fields together, appending a zero field gives another message
and other bytes with the same challenge, and `Verify` gives the same result for every key that is read as a curve point and every signature. -/
theorem C120_false_zero (hE : PastaEnv E newMinaMessage draws) (m : MinaMessage) (M : Message) (hM : MsgOk m M)
    (he : (m.pre.length + m.suffix.length) % 2 = 0) (na nb : Bool) :
    let m' : MinaMessage := { m with suffix := m.suffix ++ [fieldZero] }
    m' ≠ m ∧ m'.toBytes na nb ≠ m.toBytes na nb ∧
      ∀ (pub sig : Bytes) (ID : Option Bytes) (Q : Pt), PastaKey pub Q →
        Api.verify E pub ID (m'.toBytes na nb) sig PST = Api.verify E pub ID (m.toBytes na nb) sig PST := by
  intro m'
  have hne : m' ≠ m := by
    intro h
    have := congrArg (fun x => x.suffix.length) h
    simp [m'] at this
  have hr : ∀ x : MinaMessage, newMinaMessage (x.toBytes na nb) = some x := fun x => (C119_roundtrip x x na nb na nb [] (by simp)).2.1
  refine ⟨hne, fun h => hne ((C119_roundtrip m' m na nb na nb [] (by simp)).2.2 h), ?_⟩
  intro pub sig ID Q hp
  by_cases hl : sig.length = 64
  · rw [verify_pasta hE, verify_pasta hE]
    obtain ⟨a, ha, hA⟩ := hp.parses
    have l1 : (sig.take 32).length = 32 := by rw [List.length_take]; omega
    rw [verify_parsed ha hl (hr m'), verify_parsed ha hl (hr m)]
    have hM' : MsgOk m' { M with suf := M.suf ++ [0] } := by
      obtain ⟨i1, i2, i3, h1, h2⟩ := hM
      exact ⟨i1, i2, i3, h1, forall₂_append h2 (.cons el_zero .nil)⟩
    have e1 := hashOf_spec hA (fpMont_spec l1) hM
    have e2 := hashOf_spec hA (fpMont_spec l1) hM'
    have hch : challenge { M with suf := M.suf ++ [0] } Q (beNat (sig.take 32) : ZMod c.p) = challenge M Q (beNat (sig.take 32) : ZMod c.p) := by
      obtain ⟨_, _, _, h1, h2⟩ := hM
      have k1 := h1.length_eq
      have k2 := h2.length_eq
      unfold challenge PoseidonSpec.hash
      dsimp only
      have := sponge_zero PoseidonSpec.permute M.iv (M.pre ++ ((xval Q : PoseidonSpec.F) :: (yval Q : PoseidonSpec.F) ::
        (beNat (sig.take 32) : ZMod c.p) :: M.suf)) (by simp only [List.length_append, List.length_cons]; omega)
      rw [← this]
      simp
    dsimp only
    rw [e1, e2, hch]
  · rw [C70_reject hE pub _ sig ID (.inr (.inr hl)), C70_reject hE pub _ sig ID (.inr (.inr hl))]

/-- the hypotheses of `C120_false_zero` are met by a message with one field in each part. -/
example : MsgOk ⟨[fieldOne], [fieldOne], fieldZero, fieldOne, fieldZero⟩ ⟨(0, 1, 0), [1], [1]⟩ :=
  ⟨el_zero, el_one, el_zero, .cons el_one .nil, .cons el_one .nil⟩

deriving instance DecidableEq for MinaMessage

/-- C120 is false for the bytes, further texts with one message: a fifth word of a field, a fourth field of the initial state and missing
members are no errors, keys are read in any case, of two members with one key the later one counts, and `null` is a message. -/
theorem C120_false_texts :
    newMinaMessage "{\"transactionPrefix\":[[1,2,3,4]]}".toUTF8.toList = some ⟨[⟨1, 2, 3, 4⟩], [], ⟨0, 0, 0, 0⟩, ⟨0, 0, 0, 0⟩, ⟨0, 0, 0, 0⟩⟩ ∧
    newMinaMessage "{\"transactionPrefix\":[[1,2,3,4,5]]}".toUTF8.toList = some ⟨[⟨1, 2, 3, 4⟩], [], ⟨0, 0, 0, 0⟩, ⟨0, 0, 0, 0⟩, ⟨0, 0, 0, 0⟩⟩ ∧
    newMinaMessage "{\"TransactionPREFIX\":[[1,2,3,4]],\"spongeIV\":[[],[],[],[7]]}".toUTF8.toList =
      some ⟨[⟨1, 2, 3, 4⟩], [], ⟨0, 0, 0, 0⟩, ⟨0, 0, 0, 0⟩, ⟨0, 0, 0, 0⟩⟩ ∧
    newMinaMessage "{\"transactionPrefix\":[[9]],\"transactionPrefix\":[[1,2,3,4]]}".toUTF8.toList =
      some ⟨[⟨1, 2, 3, 4⟩], [], ⟨0, 0, 0, 0⟩, ⟨0, 0, 0, 0⟩, ⟨0, 0, 0, 0⟩⟩ ∧
    newMinaMessage "null".toUTF8.toList = some .zero ∧ newMinaMessage "{}".toUTF8.toList = some .zero := by
  decide +kernel

/-- texts that are errors: a word above `2^64 - 1`, a negative one, a fraction, a leading zero, a trailing comma, a number for a field, no object. -/
example : newMinaMessage "{\"spongeIV\":[[18446744073709551616]]}".toUTF8.toList = none ∧ newMinaMessage "{\"spongeIV\":[[-1]]}".toUTF8.toList = none ∧
    newMinaMessage "{\"spongeIV\":[[1.5]]}".toUTF8.toList = none ∧ newMinaMessage "{\"spongeIV\":[[01]]}".toUTF8.toList = none ∧
    newMinaMessage "{\"spongeIV\":[[1],]}".toUTF8.toList = none ∧ newMinaMessage "{\"transactionSuffix\":[1]}".toUTF8.toList = none ∧
    newMinaMessage "[]".toUTF8.toList = none ∧ newMinaMessage "{} x".toUTF8.toList = none := by
  decide +kernel

end Verif.Props
