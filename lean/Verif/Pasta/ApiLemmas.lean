import Verif.ECDSA.Lemmas
import Verif.Ed25519.FieldBytes
import Verif.Api.Spec
import Verif.Pasta.Api
import Verif.Pasta.GroupLemmas
import Verif.Pasta.Spec

/-!
# Package pasta: what the encodings, the sponge and the API functions compute
-/

namespace Verif.Pasta

open Verif.EC Verif.ECDSA WeierstrassCurve

/-! ### bytes -/

theorem putLe64_length (w : UInt64) : (putLe64 w).length = 8 := by simp [putLe64]

theorem leNat_digits (n k : ℕ) : leNat ((List.range k).map fun i => UInt8.ofNat (n / 256 ^ i)) = n % 256 ^ k := by
  induction k with
  | zero => simp [leNat, Nat.mod_one]
  | succ k ih =>
    rw [List.range_succ, List.map_append, leNat_append, ih, List.length_map, List.length_range]
    simp only [List.map_cons, List.map_nil, leNat, UInt8.toNat_ofNat', Nat.mul_zero, Nat.add_zero]
    rw [Nat.mod_pow_succ (x := n) (b := 256) (k := k)]

theorem putLe64_leNat (w : UInt64) : leNat (putLe64 w) = w.toNat := by
  unfold putLe64
  rw [leNat_digits]
  exact Nat.mod_eq_of_lt (lt_of_lt_of_le w.toNat_lt (by norm_num))

theorem limbsToBytes_length (a : Limbs) : (limbsToBytes a).length = 32 := by
  simp [limbsToBytes, putLe64_length]

theorem limbsToBytes_leNat (a : Limbs) : leNat (limbsToBytes a) = a.val := by
  unfold limbsToBytes
  simp only [leNat_append, putLe64_leNat, putLe64_length]
  unfold Limbs.val
  omega

theorem le64_toNat (b : Bytes) (i : ℕ) : (le64 b i).toNat = leNat ((b.drop i).take 8) := by
  unfold le64
  rw [UInt64.toNat_ofNat']
  apply Nat.mod_eq_of_lt
  have := Ed25519.load_bound b i 8
  have e : (256 : Int) ^ 8 = 2 ^ 64 := by norm_num
  rw [e] at this
  exact_mod_cast this

theorem bytesToLimbs_val {b : Bytes} (h : b.length = 32) : (bytesToLimbs b).val = leNat b := by
  have s0 := Ed25519.leNat_step b 0 8 (by omega)
  have s1 := Ed25519.leNat_step b 8 8 (by omega)
  have s2 := Ed25519.leNat_step b 16 8 (by omega)
  have s3 := Ed25519.leNat_step b 24 8 (by omega)
  have s4 : leNat (b.drop 32) = 0 := by rw [List.drop_of_length_le (by omega)]; rfl
  unfold bytesToLimbs Limbs.val
  dsimp only
  simp only [le64_toNat]
  rw [List.drop_zero] at s0
  simp only [Nat.zero_add, Nat.reduceAdd, List.drop_zero] at s0 s1 s2 s3 ⊢
  omega

theorem fqMont_spec {b : Bytes} (h : b.length = 32) : Red c.n (fqMont b) ∧ den c.n (fqMont b) = (beNat b : ZMod c.n) := by
  have := den_toMont FqM (bytesToLimbs (reverseBytes b))
  rw [bytesToLimbs_val (by unfold reverseBytes; rw [List.length_reverse]; exact h), reverseBytes, leNat_reverse] at this
  exact this

theorem fpMont_spec {b : Bytes} (h : b.length = 32) : El (fpMont b) (beNat b : ZMod c.p) := by
  have := den_toMont FpM (bytesToLimbs (reverseBytes b))
  rw [bytesToLimbs_val (by unfold reverseBytes; rw [List.length_reverse]; exact h), reverseBytes, leNat_reverse] at this
  exact this

theorem rev_limbs (a : Limbs) : reverseBytes (limbsToBytes a) = be32 a.val := by
  have hl : (reverseBytes (limbsToBytes a)).length = 32 := by
    unfold reverseBytes; rw [List.length_reverse, limbsToBytes_length]
  rw [← be32_beNat hl]
  unfold reverseBytes
  rw [beNat_reverse, limbsToBytes_leNat]

theorem fqBytes_spec (a : Limbs) : fqBytes a = be32 (den c.n a).val := by
  unfold fqBytes; rw [rev_limbs, fromMont_val FqM]

theorem fpBytes_spec (a : Limbs) : fpBytes a = be32 (den c.p a).val := by
  unfold fpBytes; rw [rev_limbs, fromMont_val FpM]

theorem El.bytes {a : Limbs} {x : ZMod c.p} (h : El a x) : fpBytes a = be32 x.val := by
  rw [fpBytes_spec, h.2]

theorem val_lt_p (x : ZMod c.p) : x.val < 256 ^ 32 := lt_trans (ZMod.val_lt x) (by decide +kernel)
theorem val_lt_n (x : ZMod c.n) : x.val < 256 ^ 32 := lt_trans (ZMod.val_lt x) (by decide +kernel)

theorem xval_coe (Q : Pt) : xval Q < c.p ∧ yval Q < c.p := ⟨xval_lt Q, yval_lt Q⟩

theorem wire_length (Q : Pt) : (wire Q).length = 64 := by
  unfold wire
  have h := xval_coe Q
  have hp : c.p < 256 ^ 32 := by decide +kernel
  rw [List.length_append, be32_length (lt_trans h.1 hp), be32_length (lt_trans h.2 hp)]

theorem take_be32 {m n : ℕ} (hm : m < 256 ^ 32) : (be32 m ++ be32 n).take 32 = be32 m := by
  rw [List.take_append_of_le_length (by rw [be32_length hm]), List.take_of_length_le (by rw [be32_length hm])]

theorem drop_be32 {m n : ℕ} (hm : m < 256 ^ 32) : (be32 m ++ be32 n).drop 32 = be32 n := by
  rw [List.drop_append_of_le_length (by rw [be32_length hm]), List.drop_of_length_le (by rw [be32_length hm]), List.nil_append]

theorem AI.iff {a : Affine} {Q : Pt} : AI a Q ↔ El a.X (xval Q : ZMod c.p) ∧ El a.Y (yval Q : ZMod c.p) := by
  cases Q with
  | zero => show _ ↔ El a.X ((0 : ℕ) : ZMod c.p) ∧ El a.Y ((0 : ℕ) : ZMod c.p); rw [Nat.cast_zero]; rfl
  | some x y h =>
    show _ ↔ El a.X ((x.val : ℕ) : ZMod c.p) ∧ El a.Y ((y.val : ℕ) : ZMod c.p)
    rw [ZMod.natCast_zmod_val, ZMod.natCast_zmod_val]; rfl

theorem AI.bytes {a : Affine} {Q : Pt} (h : AI a Q) : affineBytes a = wire Q := by
  rw [AI.iff] at h
  unfold affineBytes wire
  rw [h.1.bytes, h.2.bytes, ZMod.val_natCast_of_lt (xval_coe Q).1, ZMod.val_natCast_of_lt (xval_coe Q).2]

theorem wire_reads (Q : Pt) : Reads (wire Q) Q := by
  have h := xval_coe Q
  have hp : c.p < 256 ^ 32 := by decide +kernel
  refine ⟨wire_length Q, ?_, ?_⟩
  · unfold wire; rw [take_be32 (lt_trans h.1 hp), beNat_be32, Nat.mod_eq_of_lt h.1]
  · unfold wire; rw [drop_be32 (lt_trans h.1 hp), beNat_be32, Nat.mod_eq_of_lt h.2]

theorem wire_inj {P Q : Pt} (h : wire P = wire Q) : P = Q := by
  have hp : c.p < 256 ^ 32 := by decide +kernel
  have hP := wire_reads P
  have hQ := wire_reads Q
  rw [h] at hP
  apply good.enc_inj
  rw [enc_eq, enc_eq, ← hP.2.1, ← hP.2.2, hQ.2.1, hQ.2.2]

theorem parse64 {b : Bytes} {Q : Pt} (h : Reads b Q) : ∃ a, parsePoint b = .ret (.ok a) ∧ AI a Q := by
  obtain ⟨hl, hx, hy⟩ := h
  refine ⟨⟨fpMont (b.take 32), fpMont (b.drop 32)⟩, ?_, ?_⟩
  · unfold parsePoint
    rw [if_neg (by omega), if_neg (by omega), if_pos hl]
  · rw [AI.iff]
    refine ⟨(fpMont_spec (by rw [List.length_take]; omega)).congr ?_, (fpMont_spec (by rw [List.length_drop]; omega)).congr ?_⟩
    · rw [← hx, ZMod.natCast_mod]
    · rw [← hy, ZMod.natCast_mod]

theorem odd_word (a : Limbs) : (a.l0 &&& 1 = 1) ↔ a.val % 2 = 1 := by
  rw [← UInt64.toNat_inj, UInt64.toNat_and]
  have h2 : (1 : UInt64).toNat = 1 := rfl
  rw [h2, Nat.and_one_is_mod]
  unfold Limbs.val
  omega

theorem even_word (a : Limbs) : (a.l0 &&& 1 = 0) ↔ a.val % 2 = 0 := by
  rw [← UInt64.toNat_inj, UInt64.toNat_and]
  have h2 : (1 : UInt64).toNat = 1 := rfl
  rw [h2, Nat.and_one_is_mod, UInt64.toNat_zero]
  unfold Limbs.val
  omega

theorem p_odd : c.p % 2 = 1 := by decide +kernel

theorem decompressWith_some (l w : Limbs) (odd : Bool) : decompressWith l odd (some w) = ⟨l, pickRoot w odd⟩ := by
  rw [decompressWith]

theorem decompress_tail {g : Go (Option Limbs)} {l w : Limbs} (odd : Bool) (h : g = .ret (some w)) :
    goMap (decompressWith l odd) g = .ret ⟨l, pickRoot w odd⟩ := by
  rw [h, goMap, decompressWith_some]

theorem decompress_eq {l w : Limbs} (odd : Bool) (h : sqrt (curveRhs l) = .ret (some w)) :
    decompress l odd = .ret ⟨l, pickRoot w odd⟩ := decompress_tail odd h

/-- decompression of an x-coordinate of the curve: the root with the wanted parity. -/
theorem decompress_spec {l : Limbs} {x y : ZMod c.p} (hx : El l x) (he : y ^ 2 = x ^ 3 + c.a * x + c.b) (odd : Bool)
    (hodd : odd = decide (y.val % 2 = 1)) :
    ∃ a, decompress l odd = .ret a ∧ El a.X x ∧ El a.Y y := by
  have hca : (c.a : ZMod c.p) = 0 := Nat.cast_zero
  have h2 : El (curveRhs l) (y * y) := ((hx.sq.mul hx).add el_b).congr (by rw [hca] at he; linear_combination -he)
  obtain ⟨w, ψ, e1, e2, e3⟩ := (sqrt_spec h2).1 ⟨y, rfl⟩
  rw [decompress_eq odd e1]
  unfold pickRoot fieldIsOdd
  have hpar : (decide ((fromMont Fp w).l0 &&& 1 = 1)) = decide (ψ.val % 2 = 1) := by
    rw [decide_eq_decide, odd_word, e2.val]
  rw [hpar]
  have hroot : ψ = y ∨ ψ = -y := by
    rcases mul_eq_zero.mp (show (ψ - y) * (ψ + y) = 0 by linear_combination e3) with h | h
    · exact .inl (sub_eq_zero.mp h)
    · exact .inr (eq_neg_of_add_eq_zero_left h)
  have hneg : y ≠ 0 → (-y).val % 2 ≠ y.val % 2 := by
    intro hy
    have : NeZero y := ⟨hy⟩
    rw [ZMod.val_neg_of_ne_zero]
    have h1 := ZMod.val_lt y
    have h3 := p_odd
    omega
  by_cases hpp : decide (ψ.val % 2 = 1) = odd
  · rw [if_pos hpp]
    refine ⟨⟨l, w⟩, rfl, hx, e2.congr ?_⟩
    rcases hroot with h | h
    · exact h
    · by_cases hy : y = 0
      · rw [h, hy, neg_zero]
      · exfalso
        apply hneg hy
        rw [hodd, decide_eq_decide, h] at hpp
        omega
  · rw [if_neg hpp]
    refine ⟨⟨l, Pasta.opp Fp w⟩, rfl, hx, e2.opp.congr ?_⟩
    rcases hroot with h | h
    · exfalso; apply hpp; rw [h, hodd]
    · rw [h, neg_neg]

theorem parse33 {b : Bytes} {Q : Pt} (h : Api.EncodesCompressed b Q) : ∃ a, parsePoint b = .ret (.ok a) ∧ AI a Q := by
  obtain ⟨h0, hl, hb, hx⟩ := h
  cases Q with
  | zero => exact absurd rfl h0
  | some x y hn =>
    have hX : El (fpMont (b.drop 1)) x := (fpMont_spec (by rw [List.length_drop]; omega)).congr (by
      rw [hx]; exact ZMod.natCast_zmod_val x)
    have hodd : decide (b.getD 0 0 = 3) = decide (y.val % 2 = 1) := by
      rw [decide_eq_decide, hb]
      show (if y.val % 2 = 0 then (2 : UInt8) else 3) = 3 ↔ _
      split
      · rename_i h; rw [h]; decide
      · exact ⟨fun _ => by omega, fun _ => rfl⟩
    obtain ⟨a, e1, e2, e3⟩ := decompress_spec hX ((W_equation _ _).mp hn.1) _ hodd
    refine ⟨a, ?_, e2, e3⟩
    unfold parsePoint
    rw [if_pos hl, e1]; rfl

/-! ### Poseidon -/

/-- a sponge state as field elements. -/
def ElSt (s : St) (t : PoseidonSpec.F × PoseidonSpec.F × PoseidonSpec.F) : Prop := El s.a t.1 ∧ El s.b t.2.1 ∧ El s.c t.2.2

theorem El.pow5 {a : Limbs} {x : ZMod c.p} (h : El a x) : El (fieldPow a 5) (x ^ 5) := by
  have e : fieldPow a 5 = Pasta.mul Fp (Pasta.square Fp (Pasta.square Fp (Pasta.mul Fp (Pasta.square Fp fieldOne) a))) a := by
    unfold fieldPow
    rw [if_neg (by decide)]
    have hr : (List.range ((5 : UInt8).toNat.log2 + 1)).reverse = [2, 1, 0] := by decide +kernel
    rw [hr, List.foldl_cons, List.foldl_cons, List.foldl_cons, List.foldl_nil]
    unfold powStep
    dsimp only
    rw [if_pos (by decide), if_neg (by decide), if_pos (by decide)]
  rw [e]
  exact (((el_one.sq.mul h).sq).sq.mul h).congr (by ring)

/-- a table entry in Montgomery form, checked by computation. -/
def entryOk (l : Limbs) (k : ℕ) : Bool := decide (l.val < c.p) && decide (l.val % c.p = k * 2 ^ 256 % c.p)

theorem entryOk_el {l : Limbs} {k : ℕ} (h : entryOk l k = true) : El l (k : ZMod c.p) := by
  unfold entryOk at h
  rw [Bool.and_eq_true, decide_eq_true_iff, decide_eq_true_iff] at h
  exact El.const h.1 h.2

def rowOk (s : St) (t : ℕ × ℕ × ℕ) : Bool := entryOk s.a t.1 && (entryOk s.b t.2.1 && entryOk s.c t.2.2)

theorem rowOk_el {s : St} {t : ℕ × ℕ × ℕ} (h : rowOk s t = true) : ElSt s (PoseidonSpec.el t) := by
  unfold rowOk at h
  rw [Bool.and_eq_true, Bool.and_eq_true] at h
  exact ⟨entryOk_el h.1, entryOk_el h.2.1, entryOk_el h.2.2⟩

def tableOk : List St → List (ℕ × ℕ × ℕ) → Bool
  | [], [] => true
  | s :: ss, t :: ts => rowOk s t && tableOk ss ts
  | _, _ => false

theorem tableOk_forall : ∀ {ss ts}, tableOk ss ts = true → List.Forall₂ (fun s t => ElSt s (PoseidonSpec.el t)) ss ts
  | [], [], _ => .nil
  | s :: ss, t :: ts, h => by
    unfold tableOk at h
    rw [Bool.and_eq_true] at h
    exact .cons (rowOk_el h.1) (tableOk_forall h.2)
  | [], _ :: _, h => by simp [tableOk] at h
  | _ :: _, [], h => by simp [tableOk] at h

theorem keys_ok : tableOk roundKeys PoseidonSpec.keys = true := by decide +kernel
theorem matrix_ok : tableOk mds PoseidonSpec.matrix = true := by decide +kernel

theorem forall₂_getD {ss : List St} {ts : List (ℕ × ℕ × ℕ)}
    (h : List.Forall₂ (fun s t => ElSt s (PoseidonSpec.el t)) ss ts) (i : ℕ) :
    ElSt (ss.getD i ⟨fieldZero, fieldZero, fieldZero⟩) (PoseidonSpec.el (ts.getD i (0, 0, 0))) := by
  induction h generalizing i with
  | nil =>
    have h0 : El fieldZero ((0 : ℕ) : ZMod c.p) := el_zero.congr Nat.cast_zero.symm
    exact ⟨h0, h0, h0⟩
  | cons h1 _ ih =>
    cases i with
    | zero => exact h1
    | succ i => exact ih i

theorem ElSt.addKey {s k : St} {t u} (hs : ElSt s t) (hk : ElSt k u) : ElSt (Pasta.addKey s k) (PoseidonSpec.addKey t u) :=
  ⟨hs.1.add hk.1, hs.2.1.add hk.2.1, hs.2.2.add hk.2.2⟩

theorem ElSt.row {s k : St} {t u} (hs : ElSt s t) (hk : ElSt k u) : El (matRow s k) (PoseidonSpec.dot t u) := by
  unfold matRow PoseidonSpec.dot
  exact (((el_zero.add (hs.1.mul hk.1)).add (hs.2.1.mul hk.2.1)).add (hs.2.2.mul hk.2.2)).congr (by ring)

theorem ElSt.round {s k : St} {t u} (hs : ElSt s t) (hk : ElSt k u) :
    ElSt (Pasta.round s k) (PoseidonSpec.mix (PoseidonSpec.sbox (PoseidonSpec.addKey t u))) := by
  have h := hs.addKey hk
  have h5 : ElSt (Pasta.sbox (Pasta.addKey s k)) (PoseidonSpec.sbox (PoseidonSpec.addKey t u)) := ⟨h.1.pow5, h.2.1.pow5, h.2.2.pow5⟩
  have hm := tableOk_forall matrix_ok
  exact ⟨h5.row (forall₂_getD hm 0), h5.row (forall₂_getD hm 1), h5.row (forall₂_getD hm 2)⟩

theorem ElSt.rounds {ss : List St} {ts : List (ℕ × ℕ × ℕ)}
    (h : List.Forall₂ (fun s t => ElSt s (PoseidonSpec.el t)) ss ts) : ∀ {s t}, ElSt s t →
    ElSt (ss.foldl Pasta.round s) (ts.foldl (fun s k => PoseidonSpec.mix (PoseidonSpec.sbox (PoseidonSpec.addKey s (PoseidonSpec.el k)))) t) := by
  induction h with
  | nil => intro s t h; exact h
  | cons h1 _ ih => intro s t h; exact ih (h.round h1)

theorem ElSt.permute {s : St} {t} (h : ElSt s t) : ElSt (Pasta.permute s) (PoseidonSpec.permute t) := by
  have hk := tableOk_forall keys_ok
  unfold Pasta.permute PoseidonSpec.permute
  exact (ElSt.rounds (List.forall₂_take 63 hk) h).addKey (forall₂_getD hk 63)

theorem absorb0 (s : St) (x : Limbs) : absorb ⟨s, 0⟩ x = ⟨⟨add Fp s.a x, s.b, s.c⟩, 1⟩ := by
  have e : absorb ⟨s, 0⟩ x = absorbAt s 0 x := if_neg (show ¬ (0 : Nat) = 2 by decide)
  rw [e]
  exact if_pos rfl

theorem absorb1 (s : St) (x : Limbs) : absorb ⟨s, 1⟩ x = ⟨⟨s.a, add Fp s.b x, s.c⟩, 2⟩ := by
  have e : absorb ⟨s, 1⟩ x = absorbAt s 1 x := if_neg (show ¬ (1 : Nat) = 2 by decide)
  rw [e]
  exact if_neg (by decide)

theorem absorb2 (s : St) (x : Limbs) : absorb ⟨s, 2⟩ x = absorb ⟨permute s, 0⟩ x := by
  have e : absorb ⟨s, 2⟩ x = absorbAt (permute s) 0 x := if_pos rfl
  have e' : absorb ⟨permute s, 0⟩ x = absorbAt (permute s) 0 x := if_neg (show ¬ (0 : Nat) = 2 by decide)
  rw [e, e']

theorem hash_spec : ∀ {xs : List Limbs} {ys : List PoseidonSpec.F}, List.Forall₂ El xs ys →
    ∀ {s : St} {t}, ElSt s t → El (Pasta.permute (poseidonUpdate ⟨s, 0⟩ xs).st).a (PoseidonSpec.hash t ys) := by
  intro xs
  unfold PoseidonSpec.hash
  induction xs using List.twoStepInduction with
  | nil => intro ys h s t hs; cases h; rw [PoseidonSpec.sponge]; exact hs.permute.1
  | singleton x =>
    intro ys h s t hs
    obtain _ | ⟨h1, h⟩ := h
    cases h
    unfold poseidonUpdate
    rw [List.foldl_cons, List.foldl_nil, absorb0, PoseidonSpec.sponge]
    exact (ElSt.permute (s := ⟨add Fp s.a x, s.b, s.c⟩) (t := (t.1 + _, t.2)) ⟨hs.1.add h1, hs.2⟩).1
  | cons_cons x y xs ih _ =>
    intro ys h s t hs
    obtain _ | ⟨h1, h⟩ := h
    obtain _ | ⟨h2, h⟩ := h
    have e1 : poseidonUpdate ⟨s, 0⟩ (x :: y :: xs) = poseidonUpdate ⟨⟨add Fp s.a x, add Fp s.b y, s.c⟩, 2⟩ xs := by
      unfold poseidonUpdate
      rw [List.foldl_cons, List.foldl_cons, absorb0, absorb1]
    have hs' : ElSt ⟨add Fp s.a x, add Fp s.b y, s.c⟩ (t.1 + _, t.2.1 + _, t.2.2) := ⟨hs.1.add h1, hs.2.1.add h2, hs.2.2⟩
    rw [e1]
    obtain _ | ⟨h3, h⟩ := h
    · rw [PoseidonSpec.sponge]
      exact hs'.permute.1
    · rw [PoseidonSpec.sponge]
      have := ih (.cons h3 h) hs'.permute
      unfold poseidonUpdate at this ⊢
      rw [List.foldl_cons] at this ⊢
      rw [absorb2]
      exact this

theorem poseidonDigest_length (ctx : Ctx) : (poseidonDigest ctx).length = 32 := by
  unfold poseidonDigest reverseBytes; rw [List.length_reverse, limbsToBytes_length]

/-- the message's words are the field elements `M`. -/
def MsgOk (m : MinaMessage) (M : Message) : Prop :=
  El m.iv.1 M.iv.1 ∧ El m.iv.2.1 M.iv.2.1 ∧ El m.iv.2.2 M.iv.2.2 ∧ List.Forall₂ El m.pre M.pre ∧ List.Forall₂ El m.suffix M.suf

/-- the hash as a function of the parsed key. -/
def hashOf (a : Affine) (r : Limbs) (m : MinaMessage) : Bytes :=
  poseidonDigest (poseidonUpdate (poseidonInit [m.iv.1, m.iv.2.1, m.iv.2.2]) (m.pre ++ (a.X :: a.Y :: r :: m.suffix)))

theorem messageHash_eq {pub : Bytes} {a : Affine} (h : parsePoint pub = .ret (.ok a)) (r : Limbs) (m : MinaMessage) :
    messageHash pub r m = .ret (hashOf a r m) := by
  unfold messageHash hashOf
  rw [h]; rfl

theorem forall₂_append {xs xs' : List Limbs} {ys ys' : List PoseidonSpec.F} (h : List.Forall₂ El xs ys) (h' : List.Forall₂ El xs' ys') :
    List.Forall₂ El (xs ++ xs') (ys ++ ys') := by
  induction h with
  | nil => exact h'
  | cons h1 _ ih => exact .cons h1 ih

theorem hashOf_spec {a : Affine} {Q : Pt} (ha : AI a Q) {r : Limbs} {ρ : ZMod c.p} (hr : El r ρ) {m : MinaMessage} {M : Message}
    (hm : MsgOk m M) : hashOf a r m = be32 (challenge M Q ρ) := by
  obtain ⟨i1, i2, i3, h1, h2⟩ := hm
  rw [AI.iff] at ha
  have h := hash_spec (forall₂_append h1 (.cons ha.1 (.cons ha.2 (.cons hr h2)))) (s := ⟨m.iv.1, m.iv.2.1, m.iv.2.2⟩) (t := M.iv) ⟨i1, i2, i3⟩
  have := h.bytes
  unfold fpBytes at this
  exact this

/-! ### keys and signatures -/

theorem mask_iff (b : UInt8) : b &&& 0xC0 = 0 ↔ b.toNat < 64 := by
  have h : ∀ n : Fin 256, (UInt8.ofNat n.1 &&& 0xC0 = 0 ↔ n.1 < 64) := by decide +kernel
  have := h ⟨b.toNat, b.toNat_lt⟩
  simpa using this

/-- a key the package accepts: 32 bytes, the two top bits clear. -/
theorem keyOk_iff (d : Bytes) : (d.length = 32 ∧ d.getD 0 0 &&& 0xC0 = 0) ↔ d.length = 32 ∧ beNat d < 2 ^ 254 := by
  constructor
  · rintro ⟨hl, hm⟩
    refine ⟨hl, ?_⟩
    obtain _ | ⟨x, xs⟩ := d
    · simp at hl
    · rw [List.getD_cons_zero, mask_iff] at hm
      rw [beNat_cons]
      have hxs : xs.length = 31 := by simpa using hl
      have := beNat_lt xs
      rw [hxs] at this ⊢
      have e : (256 : ℕ) ^ 31 * 64 = 2 ^ 254 := by norm_num
      nlinarith
  · rintro ⟨hl, hm⟩
    refine ⟨hl, ?_⟩
    obtain _ | ⟨x, xs⟩ := d
    · simp at hl
    · rw [List.getD_cons_zero, mask_iff]
      rw [beNat_cons] at hm
      have hxs : xs.length = 31 := by simpa using hl
      rw [hxs] at hm
      have e : (256 : ℕ) ^ 31 * 64 = 2 ^ 254 := by norm_num
      by_contra hc
      have : 64 * 256 ^ 31 ≤ x.toNat * 256 ^ 31 := Nat.mul_le_mul_right _ (by omega)
      omega

theorem smul_mod (k : ℕ) (Q : Pt) : (k % c.n) • Q = k • Q := by
  conv_rhs => rw [← Nat.mod_add_div k c.n, add_nsmul, mul_comm c.n, mul_nsmul, n_smul, add_zero]

theorem den_smul {b : Bytes} (h : b.length = 32) (Q : Pt) : (den c.n (fqMont b)).val • Q = beNat b • Q := by
  rw [(fqMont_spec h).2, ZMod.val_natCast, smul_mod]

theorem genPublicKey_spec (d : Bytes) :
    genPublicKey d = if d.length = 32 ∧ beNat d < 2 ^ 254 then .ok (wire (beNat d • good.G)) else .error .other := by
  unfold genPublicKey
  by_cases h : d.length = 32 ∧ beNat d < 2 ^ 254
  · rw [if_pos h]
    have h' := (keyOk_iff d).mpr h
    rw [if_neg (by rw [not_or, not_not, not_not]; exact h')]
    rw [(affineScalarMul_spec (fqMont d) (fqMont_spec h.1).1 affineOne_spec).bytes, den_smul h.1]
  · rw [if_neg h]
    rw [← keyOk_iff] at h
    rw [if_pos (by by_contra hc; rw [not_or, not_not, not_not] at hc; exact h hc)]

/-- verification of a parsed key. -/
theorem verify_parsed {parse : Bytes → Option MinaMessage} {pub msg sig : Bytes} {a : Affine} (h : parsePoint pub = .ret (.ok a))
    (hl : sig.length = 64) {mm : MinaMessage} (hm : parse msg = some mm) :
    verify parse pub msg sig =
      let r := fpMont (sig.take 32)
      let s := fqMont (sig.drop 32)
      let sg := groupScalarMul s (affineToGroup affineOne)
      let epub := groupScalarMul (fqMont (hashOf a r mm)) (affineToGroup a)
      let raff := affineFromGroup (groupAdd sg ⟨epub.X, opp Fp epub.Y, epub.Z⟩)
      .ret (((fromMont Fp raff.Y).l0 &&& 1 = 0 : Bool) && equals Fp raff.X r) := by
  unfold verify
  rw [if_neg (by rw [hl]; decide), h, Go.ret_bind]
  dsimp only
  rw [hm]
  dsimp only
  rw [messageHash_eq h, Go.ret_bind]
  rfl

/-- the final comparison, given the point that was computed. -/
theorem verify_final {raff : Affine} {R : Pt} (hR : AI raff R) {r : Limbs} {ρ : ℕ} (hr : El r (ρ : ZMod c.p)) :
    (((fromMont Fp raff.Y).l0 &&& 1 = 0 : Bool) && equals Fp raff.X r) = decide (xval R = ρ % c.p ∧ yval R % 2 = 0) := by
  rw [AI.iff] at hR
  rw [Bool.eq_iff_iff, Bool.and_eq_true, decide_eq_true_iff, decide_eq_true_iff, even_word, hR.2.val, hR.1.eq hr,
    ZMod.val_natCast_of_lt (xval_coe R).2, ZMod.natCast_eq_natCast_iff', Nat.mod_eq_of_lt (xval_coe R).1, and_comm]

/-- verification is the Schnorr check, unless `s·G = -(e·Q)` is not infinity (where `GroupAdd` may miss the doubling). -/
theorem verify_spec {parse : Bytes → Option MinaMessage} {pub msg sig : Bytes} {a : Affine} {Q : Pt} (h : parsePoint pub = .ret (.ok a))
    (ha : AI a Q) (hl : sig.length = 64) {mm : MinaMessage} (hm : parse msg = some mm)
    (hne : beNat (sig.drop 32) • good.G = 0 ∨
      beNat (sig.drop 32) • good.G ≠ -(beNat (hashOf a (fpMont (sig.take 32)) mm) • Q)) :
    verify parse pub msg sig = .ret (decide (Schnorr Q (beNat (hashOf a (fpMont (sig.take 32)) mm)) (beNat (sig.take 32)) (beNat (sig.drop 32)))) := by
  rw [verify_parsed h hl hm]
  dsimp only
  have l1 : (sig.take 32).length = 32 := by rw [List.length_take]; omega
  have l2 : (sig.drop 32).length = 32 := by rw [List.length_drop]; omega
  have l3 : (hashOf a (fpMont (sig.take 32)) mm).length = 32 := poseidonDigest_length _
  have hs := groupScalarMul_spec (fqMont (sig.drop 32)) (fqMont_spec l2).1 _ _ (affineToGroup_spec affineOne_spec)
  have he := neg_spec (groupScalarMul_spec (fqMont (hashOf a (fpMont (sig.take 32)) mm)) (fqMont_spec l3).1 _ _ (affineToGroup_spec ha))
  rw [den_smul l2] at hs
  rw [den_smul l3] at he
  have hadd := groupAdd_spec hs he (by
    rcases hne with h | h
    · exact .inl h
    · exact .inr (.inr (.inl h)))
  have hfin := verify_final (affineFromGroup_spec hadd) (fpMont_spec l1)
  rw [← sub_eq_add_neg] at hfin
  rw [hfin]
  rfl

theorem genPublicKey_ok {d : Bytes} (h1 : d.length = 32) (h2 : beNat d < 2 ^ 254) : genPublicKey d = .ok (wire (beNat d • good.G)) := by
  rw [genPublicKey_spec, if_pos ⟨h1, h2⟩]

theorem pickK_spec : ∀ (draws : List Bytes) (k : Limbs), (∀ b ∈ draws, b.length = 32) → pickK draws = some k →
    ∃ κ : ℕ, 0 < κ ∧ κ < 2 ^ 250 ∧ Red c.n k ∧ den c.n k = (κ : ZMod c.n) := by
  intro draws
  induction draws with
  | nil => intro k _ h; simp [pickK] at h
  | cons b rest ih =>
    intro k hb h
    unfold pickK at h
    dsimp only at h
    have hl := hb b (by simp)
    have hl' : ((b.getD 0 0 &&& 0x03) :: b.drop 1).length = 32 := by simp [hl]
    obtain ⟨h1, h2⟩ := fqMont_spec hl'
    by_cases h0 : nonZero (drawK b) = 0
    · rw [if_pos h0] at h
      exact ih k (fun x hx => hb x (by simp [hx])) h
    · rw [if_neg h0] at h
      cases h
      have h3 : den c.n (drawK b) ≠ 0 := fun hh => h0 (by
        rw [nonZero_eq_zero]; exact (den_eq_zero_iff FqM h1).mp hh)
      refine ⟨beNat ((b.getD 0 0 &&& 0x03) :: b.drop 1), ?_, ?_, h1, h2⟩
      · rcases Nat.eq_zero_or_pos (beNat ((b.getD 0 0 &&& 0x03) :: b.drop 1)) with h | h
        · exfalso; apply h3; unfold drawK; rw [h2, h, Nat.cast_zero]
        · exact h
      · rw [beNat_cons]
        have h4 := beNat_lt (b.drop 1)
        have h5 : (b.drop 1).length = 31 := by simp [hl]
        rw [h5] at h4 ⊢
        have h6 : ∀ n : Fin 256, (UInt8.ofNat n.1 &&& 0x03).toNat < 4 := by decide +kernel
        have h7 := h6 ⟨(b.getD 0 0).toNat, (b.getD 0 0).toNat_lt⟩
        have h8 : (b.getD 0 0 &&& 0x03).toNat < 4 := by simpa using h7
        have e : (256 : ℕ) ^ 31 * 4 = 2 ^ 250 := by norm_num
        nlinarith

theorem neg_coords {Q : Pt} (hQ : Q ≠ 0) (h : yval Q % 2 = 1) : xval (-Q) = xval Q ∧ yval (-Q) % 2 = 0 := by
  cases Q with
  | zero => exact absurd rfl hQ
  | some x y hn =>
    rw [Affine.Point.neg_some]
    refine ⟨rfl, ?_⟩
    show (c.W.negY x y).val % 2 = 0
    have e : c.W.negY x y = -y := by simp [Affine.negY, Params.W, sw]
    rw [e]
    have hy : y.val % 2 = 1 := h
    have hy0 : y ≠ 0 := by rintro rfl; rw [ZMod.val_zero] at hy; omega
    have : NeZero y := ⟨hy0⟩
    rw [ZMod.val_neg_of_ne_zero]
    have h1 := ZMod.val_lt y
    have h3 := p_odd
    omega

/-- what `Sign` returns: `r` is the x-coordinate of a nonce point with even y, `s = k + e·d`. -/
theorem sign_spec {parse : Bytes → Option MinaMessage} {draws : List Bytes} {d msg sig : Bytes} (hd : ∀ b ∈ draws, b.length = 32)
    (h : sign parse draws d msg = .ret (.ok sig)) :
    d.length = 32 ∧ beNat d < 2 ^ 254 ∧ ∃ mm, parse msg = some mm ∧ ∃ (a : Affine) (κ : ZMod c.n),
      parsePoint (wire (beNat d • good.G)) = .ret (.ok a) ∧ AI a (beNat d • good.G) ∧
      κ ≠ 0 ∧ yval (κ.val • good.G) % 2 = 0 ∧
      sig = be32 (xval (κ.val • good.G)) ++
        be32 (κ + (beNat (hashOf a (fpMont (be32 (xval (κ.val • good.G)))) mm) : ZMod c.n) * (beNat d : ZMod c.n)).val := by
  unfold sign at h
  rw [genPublicKey_spec] at h
  by_cases hk : d.length = 32 ∧ beNat d < 2 ^ 254
  swap
  · rw [if_neg hk] at h; simp at h
  rw [if_pos hk] at h
  dsimp only at h
  refine ⟨hk.1, hk.2, ?_⟩
  cases hp : pickK draws with
  | none => rw [hp] at h; simp at h
  | some k =>
    rw [hp] at h
    dsimp only at h
    cases hm : parse msg with
    | none => rw [hm] at h; simp at h
    | some mm =>
      rw [hm] at h
      dsimp only at h
      refine ⟨mm, rfl, ?_⟩
      obtain ⟨a, ha, hA⟩ := parse64 (wire_reads (beNat d • good.G))
      rw [messageHash_eq ha, Go.ret_bind] at h
      obtain ⟨κ, k1, k2, k3, k4⟩ := pickK_spec draws k hd hp
      have hlt : κ < c.n := lt_trans k2 (by decide +kernel)
      have hκ0 : (κ : ZMod c.n) ≠ 0 := by
        rw [Ne, ZMod.natCast_eq_zero_iff]; intro hdv; have := Nat.le_of_dvd k1 hdv; omega
      have hr := affineScalarMul_spec k k3 affineOne_spec
      rw [k4, ZMod.val_natCast_of_lt hlt] at hr
      have hG0 : good.G ≠ 0 := Affine.Point.some_ne_zero _
      have hR0 : κ • good.G ≠ 0 := by
        rw [Ne, smul_eq_zero_iff _ _ hG0]; intro hdv; have := Nat.le_of_dvd k1 hdv; omega
      have hrx := (AI.iff.mp hr).1
      have hry := (AI.iff.mp hr).2
      -- the bytes of r
      have hrb : (affineBytes (affineScalarMul k affineOne)).take 32 = be32 (xval (κ • good.G)) := by
        rw [hr.bytes]; unfold wire
        exact take_be32 (lt_trans (xval_coe _).1 (by decide +kernel))
      have hmont : fpMont (be32 (xval (κ • good.G))) = (affineScalarMul k affineOne).X := by
        have hx := fpMont_spec (b := be32 (xval (κ • good.G))) (be32_length (lt_trans (xval_coe _).1 (by decide +kernel)))
        rw [beNat_be32] at hx
        exact hx.inj hrx
      have l3 : (hashOf a (affineScalarMul k affineOne).X mm).length = 32 := poseidonDigest_length _
      obtain ⟨m1, m2⟩ := fqMont_spec l3
      obtain ⟨n1, n2⟩ := fqMont_spec hk.1
      obtain ⟨p1, p2⟩ := den_mul FqM (fqMont (hashOf a (affineScalarMul k affineOne).X mm)) (fqMont d) (.inl m1)
      rw [m2, n2] at p2
      -- parity
      have hodd : fieldIsOdd (affineScalarMul k affineOne).Y = decide (yval (κ • good.G) % 2 = 1) := by
        unfold fieldIsOdd
        rw [decide_eq_decide, odd_word, hry.val, ZMod.val_natCast_of_lt (xval_coe _).2]
      rw [hrb, hodd] at h
      by_cases hpar : yval (κ • good.G) % 2 = 1
      · rw [if_pos (by rw [decide_eq_true_iff]; exact hpar)] at h
        obtain ⟨o1, o2⟩ := den_opp FqM k k3
        obtain ⟨q1, q2⟩ := den_add FqM (opp Fq k) _ o1 p1
        rw [o2, k4, p2] at q2
        have hneg : (-(κ : ZMod c.n)).val • good.G = -(κ • good.G) := by
          have : NeZero (κ : ZMod c.n) := ⟨hκ0⟩
          rw [ZMod.val_neg_of_ne_zero, ZMod.val_natCast_of_lt hlt]
          apply eq_neg_of_add_eq_zero_left
          rw [← add_nsmul, Nat.sub_add_cancel hlt.le, n_smul]
        obtain ⟨w1, w2⟩ := neg_coords hR0 hpar
        refine ⟨a, -(κ : ZMod c.n), ha, hA, neg_ne_zero.mpr hκ0, ?_, ?_⟩
        · rw [hneg]; exact w2
        · rw [hneg, w1, hmont, ← q2, ← fqBytes_spec]
          simp only [Go.pure_eq, Go.ret.injEq, Except.ok.injEq] at h
          exact h.symm
      · rw [if_neg (by rw [decide_eq_true_iff]; exact hpar)] at h
        obtain ⟨q1, q2⟩ := den_add FqM k _ k3 p1
        rw [k4, p2] at q2
        refine ⟨a, (κ : ZMod c.n), ha, hA, hκ0, ?_, ?_⟩
        · rw [ZMod.val_natCast_of_lt hlt]; omega
        · rw [ZMod.val_natCast_of_lt hlt, hmont, ← q2, ← fqBytes_spec]
          simp only [Go.pure_eq, Go.ret.injEq, Except.ok.injEq] at h
          exact h.symm

end Verif.Pasta
