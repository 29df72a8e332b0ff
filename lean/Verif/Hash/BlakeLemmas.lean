import Verif.Hash.Blake
import Verif.Hash.BlakeMix
import Verif.Hash.BlakeSpec

/-! # The BLAKE model computes the function of the proposal -/

namespace Verif.Blake

open Verif.Hash

variable {w : ℕ}

/-- the first eight words as a function. -/
def fn8 (h : List (BitVec w)) : Fin 8 → BitVec w := fun i => h.getD i.val 0
/-- the first four words as a function. -/
def fn4 (h : List (BitVec w)) : Fin 4 → BitVec w := fun i => h.getD i.val 0

/-- the constants of the code are those of the proposal. -/
structure Agree (C : Cfg w) (V : Spec.Variant w) (short : Bool) : Prop where
  hw : w = 32 ∨ w = 64
  blockSize : C.blockSize = Spec.blockBytes w
  blockBits : C.blockBits = 8 * Spec.blockBytes w
  thr : C.thr + 1 + w / 4 = Spec.blockBytes w
  thrBits : C.thrBits = 8 * C.thr
  lenBits : C.lenBits = 8 * (w / 4)
  lenPad : C.lenPad = List.replicate (w / 4 - 8) 0
  cst : ∀ j, j < 16 → C.cst.getD j 0 = V.cst j
  prog : C.prog = (List.range V.rounds).flatMap fun r => schedule V.R (fun i => Spec.sig r (2 * i.val))
    (fun i => Spec.sig r (2 * i.val + 1)) (fun i => Spec.sig r (2 * i.val + 1)) (fun i => Spec.sig r (2 * i.val))
  hR : ∀ i, V.R i < w
  ctr : ∀ t, t < 2 ^ 64 → C.ctr t = [BitVec.ofNat w t, BitVec.ofNat w t, BitVec.ofNat w (t / 2 ^ w), BitVec.ofNat w (t / 2 ^ w)]
  word : ∀ b, C.word b = BitVec.ofNat w (beNat (b.take (w / 8)))
  outWord : ∀ x, C.outWord x = padLeft (w / 8) (natBytes x.toNat)
  last : V.last = if short then 0 else 1
  outWords : V.outWords = if short then (if w = 32 then 7 else 6) else 8

theorem sig_lt : ∀ r j, Spec.sig r j < 16 := by
  intro r j
  unfold Spec.sig
  generalize Fin.ofNat 10 r = a
  generalize Fin.ofNat 16 j = b
  revert a b
  decide

theorem foldl_flatMap {α β γ : Type} (f : γ → β → γ) (g : α → List β) (l : List α) (s : γ) :
    (l.flatMap g).foldl f s = l.foldl (fun s a => (g a).foldl f s) s := by
  induction l generalizing s with
  | nil => rfl
  | cons a l ih => rw [List.flatMap_cons, List.foldl_append, ih]; rfl

theorem rounds_eq (V : Spec.Variant w) (hR : ∀ i, V.R i < w) (x : ℕ → ℕ → BitVec w) (n : ℕ) (v : Vars w) (hv : v.length = 16) :
    toFn ((List.range n).foldl (fun s r => (schedule V.R (fun i => Spec.sig r (2 * i.val))
      (fun i => Spec.sig r (2 * i.val + 1)) (fun i => Spec.sig r (2 * i.val + 1)) (fun i => Spec.sig r (2 * i.val))).foldl (exec x) s) v) =
    (List.range n).foldl (fun v r => Spec.round V.R (fun i => x (Spec.sig r (2 * i.val)) (Spec.sig r (2 * i.val + 1)))
      (fun i => x (Spec.sig r (2 * i.val + 1)) (Spec.sig r (2 * i.val))) v) (toFn v) ∧
    ((List.range n).foldl (fun s r => (schedule V.R (fun i => Spec.sig r (2 * i.val))
      (fun i => Spec.sig r (2 * i.val + 1)) (fun i => Spec.sig r (2 * i.val + 1)) (fun i => Spec.sig r (2 * i.val))).foldl (exec x) s) v).length = 16 := by
  induction n with
  | zero => exact ⟨rfl, hv⟩
  | succ n ih =>
    rw [List.range_succ, List.foldl_append, List.foldl_append]
    simp only [List.foldl_cons, List.foldl_nil]
    have := exec_schedule V.R hR (fun i => Spec.sig n (2 * i.val)) (fun i => Spec.sig n (2 * i.val + 1))
      (fun i => Spec.sig n (2 * i.val + 1)) (fun i => Spec.sig n (2 * i.val)) x _ ih.2
    exact ⟨by rw [this.1, ih.1], this.2⟩

theorem toFn_16 (v0 v1 v2 v3 v4 v5 v6 v7 v8 v9 v10 v11 v12 v13 v14 v15 : BitVec w) :
    toFn [v0, v1, v2, v3, v4, v5, v6, v7, v8, v9, v10, v11, v12, v13, v14, v15] =
      ![v0, v1, v2, v3, v4, v5, v6, v7, v8, v9, v10, v11, v12, v13, v14, v15] := by
  funext i; fin_cases i <;> rfl

/-- the sixteen words before the rounds. -/
def initV (C : Cfg w) (s : List (BitVec w)) (nullt : Bool) (h : List (BitVec w)) (t : ℕ) : List (BitVec w) :=
  let c := fun i => C.cst.getD i 0
  let v := [h.getD 0 0, h.getD 1 0, h.getD 2 0, h.getD 3 0, h.getD 4 0, h.getD 5 0, h.getD 6 0, h.getD 7 0,
    c 0 ^^^ s.getD 0 0, c 1 ^^^ s.getD 1 0, c 2 ^^^ s.getD 2 0, c 3 ^^^ s.getD 3 0, c 4, c 5, c 6, c 7]
  let k := C.ctr t
  if nullt then v else
    (((v.set 12 (v.getD 12 0 ^^^ k.getD 0 0)).set 13 (v.getD 13 0 ^^^ k.getD 1 0)).set 14 (v.getD 14 0 ^^^ k.getD 2 0)).set 15
      (v.getD 15 0 ^^^ k.getD 3 0)

theorem toFn_set (h0 h1 h2 h3 h4 h5 h6 h7 s0 s1 s2 s3 c0 c1 c2 c3 c4 c5 c6 c7 k0 k1 k2 k3 : BitVec w) :
    let v := [h0, h1, h2, h3, h4, h5, h6, h7, c0 ^^^ s0, c1 ^^^ s1, c2 ^^^ s2, c3 ^^^ s3, c4, c5, c6, c7]
    toFn ((((v.set 12 (v.getD 12 0 ^^^ [k0, k1, k2, k3].getD 0 0)).set 13 (v.getD 13 0 ^^^ [k0, k1, k2, k3].getD 1 0)).set 14
      (v.getD 14 0 ^^^ [k0, k1, k2, k3].getD 2 0)).set 15 (v.getD 15 0 ^^^ [k0, k1, k2, k3].getD 3 0)) =
    ![h0, h1, h2, h3, h4, h5, h6, h7, s0 ^^^ c0, s1 ^^^ c1, s2 ^^^ c2, s3 ^^^ c3, k0 ^^^ c4, k1 ^^^ c5, k2 ^^^ c6, k3 ^^^ c7] := by
  rw [BitVec.xor_comm s0, BitVec.xor_comm s1, BitVec.xor_comm s2, BitVec.xor_comm s3, BitVec.xor_comm k0, BitVec.xor_comm k1,
    BitVec.xor_comm k2, BitVec.xor_comm k3]
  exact toFn_16 ..

theorem initV_eq {C : Cfg w} {V : Spec.Variant w} {short : Bool} (A : Agree C V short) (s : List (BitVec w)) (nullt : Bool)
    (h : List (BitVec w)) (t : ℕ) (ht : t < 2 ^ 64) :
    toFn (initV C s nullt h t) =
      ![fn8 h 0, fn8 h 1, fn8 h 2, fn8 h 3, fn8 h 4, fn8 h 5, fn8 h 6, fn8 h 7,
        fn4 s 0 ^^^ V.cst 0, fn4 s 1 ^^^ V.cst 1, fn4 s 2 ^^^ V.cst 2, fn4 s 3 ^^^ V.cst 3,
        BitVec.ofNat w (if nullt then 0 else t) ^^^ V.cst 4, BitVec.ofNat w (if nullt then 0 else t) ^^^ V.cst 5,
        BitVec.ofNat w ((if nullt then 0 else t) / 2 ^ w) ^^^ V.cst 6, BitVec.ofNat w ((if nullt then 0 else t) / 2 ^ w) ^^^ V.cst 7] := by
  rw [← A.cst 0 (by decide), ← A.cst 1 (by decide), ← A.cst 2 (by decide), ← A.cst 3 (by decide), ← A.cst 4 (by decide),
    ← A.cst 5 (by decide), ← A.cst 6 (by decide), ← A.cst 7 (by decide)]
  unfold initV
  rw [A.ctr t ht]
  cases nullt
  · simp only [Bool.false_eq_true, if_false]
    exact toFn_set ..
  · simp only [if_true, Nat.zero_div]
    rw [BitVec.ofNat_eq_ofNat, BitVec.zero_xor, BitVec.zero_xor, BitVec.zero_xor, BitVec.zero_xor, toFn_16]
    rw [BitVec.xor_comm (fn4 s 0), BitVec.xor_comm (fn4 s 1), BitVec.xor_comm (fn4 s 2), BitVec.xor_comm (fn4 s 3)]
    rfl

theorem getD_map_range (f : ℕ → BitVec w) (n i : ℕ) (h : i < n) : ((List.range n).map f).getD i 0 = f i := by
  simp [List.getD, h]

theorem pass_t (C : Cfg w) (s : List (BitVec w)) (nullt : Bool) (ht : List (BitVec w) × ℕ) (p : Bytes) :
    (pass C s nullt ht p).2 = (ht.2 + C.blockBits) % 2 ^ 64 := rfl

theorem pass_eq {C : Cfg w} {V : Spec.Variant w} {short : Bool} (A : Agree C V short) (s : List (BitVec w)) (nullt : Bool)
    (ht : List (BitVec w) × ℕ) (p : Bytes) :
    fn8 (pass C s nullt ht p).1 = Spec.compress V (fn8 ht.1) (fun j => BitVec.ofNat w (beNat ((p.drop (w / 8 * j)).take (w / 8))))
      (fn4 s) (if nullt then 0 else (ht.2 + C.blockBits) % 2 ^ 64) := by
  have hm : ∀ i k, i < 16 → k < 16 → C.word (p.drop (C.blockSize / 16 * i)) ^^^ C.cst.getD k 0 =
      BitVec.ofNat w (beNat ((p.drop (w / 8 * i)).take (w / 8))) ^^^ V.cst k := by
    intro i k hi hk
    have : C.blockSize / 16 = w / 8 := by rw [A.blockSize, Spec.blockBytes]; rcases A.hw with h | h <;> subst h <;> rfl
    rw [A.word, A.cst k hk, this]
  have hn : ∀ v : Vars w, v.length = 16 → ∀ i, i < 16 → (C.prog.foldl (exec fun i k => C.word (p.drop (C.blockSize / 16 * i)) ^^^ C.cst.getD k 0) v).getD i 0 =
      (List.range V.rounds).foldl (fun v r => Spec.round V.R
        (fun i => BitVec.ofNat w (beNat ((p.drop (w / 8 * Spec.sig r (2 * i.val))).take (w / 8))) ^^^ V.cst (Spec.sig r (2 * i.val + 1)))
        (fun i => BitVec.ofNat w (beNat ((p.drop (w / 8 * Spec.sig r (2 * i.val + 1))).take (w / 8))) ^^^ V.cst (Spec.sig r (2 * i.val))) v)
        (toFn v) (Fin.ofNat 16 i) := by
    intro v hv i hi
    have := (rounds_eq V A.hR (fun i k => C.word (p.drop (C.blockSize / 16 * i)) ^^^ C.cst.getD k 0) V.rounds v hv).1
    rw [← foldl_flatMap, ← A.prog] at this
    simp only [fun r j r' j' => hm (Spec.sig r j) (Spec.sig r' j') (sig_lt r j) (sig_lt r' j')] at this
    rw [← this, toFn]
    simp [Nat.mod_eq_of_lt hi]
  generalize htt : (ht.2 + C.blockBits) % 2 ^ 64 = t
  have htlt : t < 2 ^ 64 := by rw [← htt]; exact Nat.mod_lt _ (by decide)
  have hv : ∃ v : Vars w, v.length = 16 ∧ (pass C s nullt ht p).1 = (List.range 8).map (fun i => ht.1.getD i 0 ^^^
        ((C.prog.foldl (exec fun i k => C.word (p.drop (C.blockSize / 16 * i)) ^^^ C.cst.getD k 0) v).getD i 0 ^^^
          (C.prog.foldl (exec fun i k => C.word (p.drop (C.blockSize / 16 * i)) ^^^ C.cst.getD k 0) v).getD (i + 8) 0 ^^^ s.getD (i % 4) 0)) ∧
      toFn v =
      ![fn8 ht.1 0, fn8 ht.1 1, fn8 ht.1 2, fn8 ht.1 3, fn8 ht.1 4, fn8 ht.1 5, fn8 ht.1 6, fn8 ht.1 7,
        fn4 s 0 ^^^ V.cst 0, fn4 s 1 ^^^ V.cst 1, fn4 s 2 ^^^ V.cst 2, fn4 s 3 ^^^ V.cst 3,
        BitVec.ofNat w (if nullt then 0 else t) ^^^ V.cst 4, BitVec.ofNat w (if nullt then 0 else t) ^^^ V.cst 5,
        BitVec.ofNat w ((if nullt then 0 else t) / 2 ^ w) ^^^ V.cst 6, BitVec.ofNat w ((if nullt then 0 else t) / 2 ^ w) ^^^ V.cst 7] := by
    exact ⟨initV C s nullt ht.1 t, by unfold initV; split <;> rfl, by rw [← htt]; rfl, initV_eq A s nullt ht.1 t htlt⟩
  obtain ⟨v, hl, he, hv⟩ := hv
  rw [he]
  unfold Spec.compress
  dsimp only
  rw [← hv]
  funext i
  rw [fn8, getD_map_range _ _ _ i.isLt]
  rw [hn v hl _ (by omega), hn v hl _ (by omega)]
  have e1 : Fin.ofNat 16 i.val = ⟨i.val, by omega⟩ := by ext; simp; omega
  have e2 : Fin.ofNat 16 (i.val + 8) = ⟨i.val + 8, by omega⟩ := by ext; simp; omega
  have e3 : fn4 s (Fin.ofNat 4 i.val) = s.getD (i.val % 4) 0 := rfl
  rw [e1, e2, e3, BitVec.xor_comm _ (s.getD _ _), ← BitVec.xor_assoc, ← BitVec.xor_assoc]
  rfl

/-! ## Writing -/

theorem block_x (C : Cfg w) (d : St w) (p : Bytes) : (block C d p).x = d.x := rfl

theorem write_nil (C : Cfg w) (hB : 0 < C.blockSize) (d : St w) (p : Bytes) (hx : d.x = []) :
    write C d p = { block C d p with x := rest C.blockSize p } := by
  have hlt := Nat.mod_lt p.length hB
  have hdm := Nat.div_add_mod p.length C.blockSize
  unfold write
  simp only [hx, List.length_nil, gt_iff_lt, Nat.lt_irrefl, if_false]
  by_cases hp : p.length ≥ C.blockSize
  · simp only [hp, if_true]
    have e : p.length / C.blockSize * C.blockSize = C.blockSize * (p.length / C.blockSize) := Nat.mul_comm _ _
    rw [e]
    have hb : block C d (p.take (C.blockSize * (p.length / C.blockSize))) = block C d p := by
      unfold block fullBlocks
      rw [List.length_take, Nat.min_eq_left (by omega), Nat.mul_div_cancel_left _ hB, runBlocks_take _ _ _ _ _ (by omega)]
    rw [hb]
    split
    · rename_i hr
      rw [List.length_drop] at hr
      rw [List.take_of_length_le (by rw [List.length_drop]; omega)]
      rfl
    · rename_i hr
      have : rest C.blockSize p = [] := List.eq_nil_of_length_eq_zero (by rw [rest]; omega)
      rw [this]
      conv_lhs => rw [show block C d p = { block C d p with x := (block C d p).x } from rfl, block_x, hx]
  · simp only [hp, if_false]
    have := short_block C.blockSize (pass C d.s d.nullt) (d.h, d.t) p (by omega)
    have hb : block C d p = d := by unfold block; rw [this.1]
    rw [hb, this.2]
    split
    · rw [List.take_of_length_le (by omega)]
    · have : p = [] := List.eq_nil_of_length_eq_zero (by omega)
      rw [this, ← hx]

theorem write_eq (C : Cfg w) (hB : 0 < C.blockSize) (d : St w) (p : Bytes) (hx : d.x.length < C.blockSize) :
    write C d p = { block C d (d.x ++ p) with x := rest C.blockSize (d.x ++ p) } := by
  by_cases hnx : d.x = []
  · rw [write_nil C hB d p hnx, hnx]; rfl
  have hpos : 0 < d.x.length := List.length_pos_iff.mpr hnx
  by_cases hf : C.blockSize - d.x.length ≤ p.length
  · have hA : (d.x ++ p.take (C.blockSize - d.x.length)).length = C.blockSize := by
      rw [List.length_append, List.length_take]; omega
    have hn : (if p.length > C.blockSize - d.x.length then C.blockSize - d.x.length else p.length) = C.blockSize - d.x.length := by
      split <;> omega
    have h0 : write C d p = write C { block C d (d.x ++ p.take (C.blockSize - d.x.length)) with x := [] } (p.drop (C.blockSize - d.x.length)) := by
      conv_lhs => unfold write
      simp only [gt_iff_lt, hpos, if_true]
      simp only [gt_iff_lt] at hn
      rw [hn]
      simp only [hA, if_true]
      conv_rhs => unfold write
      simp only [List.length_nil, Nat.lt_irrefl, gt_iff_lt, if_false]
      rfl
    rw [h0, write_nil C hB _ _ rfl]
    have h1 := one_block C.blockSize (pass C d.s d.nullt) hB (d.h, d.t) _ hA
    have h2 := fullBlocks_append C.blockSize (pass C d.s d.nullt) hB (d.h, d.t) (d.x ++ p.take (C.blockSize - d.x.length))
      (p.drop (C.blockSize - d.x.length))
    rw [h1.2, List.nil_append, List.append_assoc, List.take_append_drop] at h2
    unfold block
    dsimp only
    rw [← h2.1, h2.2]
  · have hs : (d.x ++ p).length < C.blockSize := by rw [List.length_append]; omega
    have hs2 := short_block C.blockSize (pass C d.s d.nullt) (d.h, d.t) _ hs
    have hb : block C d (d.x ++ p) = d := by unfold block; rw [hs2.1]
    rw [hb, hs2.2]
    unfold write
    have hn : (if p.length > C.blockSize - d.x.length then C.blockSize - d.x.length else p.length) = p.length := by
      split <;> omega
    simp only [gt_iff_lt] at hn
    have ht : d.x ++ p.take (C.blockSize - d.x.length) = d.x ++ p := by rw [List.take_of_length_le (by omega)]
    have hne : ¬ (d.x ++ p).length = C.blockSize := by omega
    simp only [gt_iff_lt, hpos, if_true, hn, ht, hne, if_false, List.drop_length, List.length_nil]
    have hB' : ¬ (0 ≥ C.blockSize) := by omega
    simp only [hB', if_false, List.length_nil, Nat.lt_irrefl]

theorem write_short (C : Cfg w) (d : St w) (p : Bytes) (h : d.x.length + p.length < C.blockSize) :
    write C d p = { d with x := d.x ++ p } := by
  have hs := short_block C.blockSize (pass C d.s d.nullt) (d.h, d.t) (d.x ++ p) (by rw [List.length_append]; omega)
  rw [write_eq C (by omega) d p (by omega), hs.2, block, hs.1]

theorem write_full (C : Cfg w) (d : St w) (p : Bytes) (hx : d.x.length < C.blockSize) (h : d.x.length + p.length = C.blockSize) :
    write C d p = { d with h := (pass C d.s d.nullt (d.h, d.t) (d.x ++ p)).1, t := (pass C d.s d.nullt (d.h, d.t) (d.x ++ p)).2, x := [] } := by
  have hs := one_block C.blockSize (pass C d.s d.nullt) (by omega) (d.h, d.t) (d.x ++ p) (by rw [List.length_append]; omega)
  rw [write_eq C (by omega) d p hx, hs.2, block, hs.1]

/-! ## The chaining value -/

theorem compress_congr (V : Spec.Variant w) (h : Fin 8 → BitVec w) (m m' : ℕ → BitVec w) (s : Fin 4 → BitVec w) (t : ℕ)
    (hm : ∀ j, j < 16 → m j = m' j) : Spec.compress V h m s t = Spec.compress V h m' s t := by
  unfold Spec.compress
  simp only [fun r j => hm (Spec.sig r j) (sig_lt r j)]

/-- one pass, on block `i` of `P`. -/
theorem pass_block {C : Cfg w} {V : Spec.Variant w} {short : Bool} (A : Agree C V short) (s : List (BitVec w)) (nullt : Bool)
    (ht : List (BitVec w) × ℕ) (P : Bytes) (i : ℕ) :
    fn8 (pass C s nullt ht ((P.drop (C.blockSize * i)).take C.blockSize)).1 = Spec.compress V (fn8 ht.1) (Spec.msgWord w P i)
      (fn4 s) (if nullt then 0 else (ht.2 + C.blockBits) % 2 ^ 64) := by
  rw [pass_eq A]
  apply compress_congr
  intro j hj
  rw [Spec.msgWord, A.blockSize, List.drop_take, List.take_take, List.drop_drop]
  have : min (w / 8) (Spec.blockBytes w - w / 8 * j) = w / 8 := by
    rw [Spec.blockBytes]
    rcases A.hw with h | h <;> subst h <;> omega
  rw [this]

theorem passes_t (C : Cfg w) (s : List (BitVec w)) (h : List (BitVec w)) (m : Bytes) (k : ℕ) :
    (runBlocks C.blockSize (pass C s false) k (h, 0) m).2 = (C.blockBits * k) % 2 ^ 64 := by
  induction k with
  | zero => rfl
  | succ k ih =>
    rw [runBlocks_add, runBlocks, runBlocks, pass_t, ih, Nat.mul_succ, Nat.mod_add_mod]

/-- the chaining value after the full blocks of the message. -/
theorem chain_prefix {C : Cfg w} {V : Spec.Variant w} {short : Bool} (A : Agree C V short) (s iv : List (BitVec w))
    (hiv : fn8 iv = V.iv) (m Q : Bytes) (hm : m.length < 2 ^ 61) (k : ℕ) (hk : C.blockSize * k ≤ m.length) :
    Spec.chain V (fn4 s) (m ++ Q) (8 * m.length) k = fn8 (runBlocks C.blockSize (pass C s false) k (iv, 0) m).1 := by
  induction k with
  | zero => exact hiv.symm
  | succ k ih =>
    rw [Nat.mul_succ] at hk
    have hB : 0 < C.blockSize := by rw [A.blockSize, Spec.blockBytes]; have := A.hw; omega
    have hb : (m.drop (C.blockSize * k)).take C.blockSize = ((m ++ Q).drop (C.blockSize * k)).take C.blockSize := by
      rw [List.drop_append_of_le_length (by omega), List.take_append_of_le_length (by rw [List.length_drop]; omega)]
    rw [runBlocks_add, runBlocks, runBlocks, hb, pass_block A, passes_t, Spec.chain, ih (by omega)]
    congr 1
    rw [Spec.counter, ← A.blockSize]
    have hbits : C.blockBits = 8 * C.blockSize := by rw [A.blockBits, A.blockSize]
    have e1 : 8 * C.blockSize * k = 8 * (C.blockSize * k) := by rw [Nat.mul_assoc]
    have e2 : 8 * C.blockSize * (k + 1) = 8 * (C.blockSize * k) + 8 * C.blockSize := by rw [Nat.mul_succ, Nat.mul_assoc]
    rw [e1, e2, hbits, e1, if_neg (by omega), if_neg (by simp)]
    omega

/-- the chaining value depends on the first blocks only. -/
theorem chain_append (V : Spec.Variant w) (s : Fin 4 → BitVec w) (P Q : Bytes) (l k : ℕ) (hk : Spec.blockBytes w * k ≤ P.length) :
    Spec.chain V s (P ++ Q) l k = Spec.chain V s P l k := by
  induction k with
  | zero => rfl
  | succ k ih =>
    rw [Nat.mul_succ] at hk
    rw [Spec.chain, Spec.chain, ih (by omega)]
    apply compress_congr
    intro j hj
    rw [Spec.msgWord, Spec.msgWord]
    have : Spec.blockBytes w * k + w / 8 * j + w / 8 ≤ P.length := by
      have : w / 8 * j + w / 8 ≤ Spec.blockBytes w := by
        rw [Spec.blockBytes, ← Nat.mul_succ]
        calc w / 8 * j.succ ≤ w / 8 * 16 := Nat.mul_le_mul_left _ (by omega)
          _ ≤ 2 * w := by omega
      omega
    rw [List.drop_append_of_le_length (by omega), List.take_append_of_le_length (by rw [List.length_drop]; omega)]

/-- the digest after the bytes `m`. -/
structure Absorbed (C : Cfg w) (iv s : List (BitVec w)) (short : Bool) (d : St w) (m : Bytes) : Prop where
  x : d.x = rest C.blockSize m
  ht : (d.h, d.t) = fullBlocks C.blockSize (pass C s false) (iv, 0) m
  nullt : d.nullt = false
  s : d.s = s
  short : d.short = short

theorem absorbed_new (C : Cfg w) (iv s : List (BitVec w)) (short : Bool) : Absorbed C iv s short (new short iv s) [] :=
  ⟨by simp [new, rest], by simp [new, fullBlocks, runBlocks], rfl, rfl, rfl⟩

theorem Absorbed.reset {C : Cfg w} {iv s : List (BitVec w)} {short : Bool} {d : St w} {m : Bytes} (h : Absorbed C iv s short d m) :
    Absorbed C iv s short (reset iv d) [] :=
  ⟨by simp [Blake.reset, rest], by simp [Blake.reset, fullBlocks, runBlocks], rfl, h.s, h.short⟩

theorem Absorbed.write {C : Cfg w} (hB : 0 < C.blockSize) {iv s : List (BitVec w)} {short : Bool} {d : St w} {m : Bytes}
    (h : Absorbed C iv s short d m) (p : Bytes) : Absorbed C iv s short (write C d p) (m ++ p) := by
  have hx : d.x.length < C.blockSize := by rw [h.x, rest_length]; exact Nat.mod_lt _ hB
  have ha := fullBlocks_append C.blockSize (pass C s false) hB (iv, 0) m p
  rw [write_eq C hB d p hx]
  refine ⟨?_, ?_, h.nullt, h.s, h.short⟩
  · rw [h.x]; exact ha.2
  · rw [← ha.1, ← h.ht, ← h.x, block, h.s, h.nullt]

theorem subT_add (t a b : ℕ) (ha : a ≤ b) (hb : b < 2 ^ 64) : (subT t a + b) % 2 ^ 64 = (t + (b - a)) % 2 ^ 64 := by
  unfold subT; omega

theorem padArray_take (n k : ℕ) (hk : 0 < k) (hkn : k ≤ n) : (padArray n).take k = [0x80] ++ List.replicate (k - 1) 0 := by
  obtain ⟨j, rfl⟩ : ∃ j, k = j + 1 := ⟨k - 1, by omega⟩
  rw [padArray, List.take_succ_cons, List.take_replicate]
  simp only [Nat.add_sub_cancel, List.singleton_append]
  rw [Nat.min_eq_left (by omega)]

theorem padLeft_more (b : Bytes) (j n : ℕ) (h : b.length ≤ n) : List.replicate j 0 ++ padLeft n b = padLeft (j + n) b := by
  rw [padLeft, padLeft, ← List.append_assoc, List.replicate_append_replicate]
  congr 2; omega

/-- the end of `Sum`: the chaining value is that of the padded message. -/
theorem finish_eq {C : Cfg w} {V : Spec.Variant w} {short : Bool} (A : Agree C V short) {s iv : List (BitVec w)}
    (hiv : fn8 iv = V.iv) {d : St w} {m : Bytes} (h : Absorbed C iv s short d m) (hm : m.length < 2 ^ 61) :
    fn8 (finish C d).h = Spec.chain V (fn4 s) (Spec.pad V m) (8 * m.length) ((Spec.pad V m).length / Spec.blockBytes w) ∧
    (finish C d).h.length = 8 ∧ (finish C d).short = short := by
  set B := C.blockSize with hBdef
  have hBw := A.blockSize
  have hbits : C.blockBits = 8 * B := by rw [A.blockBits, hBdef, A.blockSize]
  have hthr : C.thr + 1 + w / 4 = B := by rw [A.thr, hBdef, A.blockSize]
  have hthrBits := A.thrBits
  have hlenBits := A.lenBits
  have hL : w / 4 = 8 ∨ w / 4 = 16 := by rcases A.hw with h | h <;> subst h <;> decide
  have hB : B = 64 ∨ B = 128 := by
    rw [hBdef, A.blockSize, Spec.blockBytes]; have := A.hw; omega
  have hB0 : 0 < B := by omega
  set L := w / 4 with hLdef
  obtain ⟨k, hk⟩ : ∃ k, m.length / B = k := ⟨_, rfl⟩
  obtain ⟨nx, hnx⟩ : ∃ nx, m.length % B = nx := ⟨_, rfl⟩
  have hdm : B * k + nx = m.length := by rw [← hk, ← hnx]; exact Nat.div_add_mod _ _
  have hnxlt : nx < B := by rw [← hnx]; exact Nat.mod_lt _ hB0
  have hxl : d.x.length = nx := by rw [h.x, rest_length, hnx]
  have hh : d.h = (runBlocks B (pass C s false) k (iv, 0) m).1 := by
    rw [← hk]; exact congrArg Prod.fst h.ht
  have ht : d.t = (8 * B * k) % 2 ^ 64 := by
    have := congrArg Prod.snd h.ht
    rw [fullBlocks, passes_t, hbits, hk] at this
    exact this
  have ek : 8 * B * k = 8 * (B * k) := Nat.mul_assoc _ _ _
  have hmod : (m.length + L) % B = (nx + L) % B := by rw [← hdm, Nat.add_assoc, Nat.mul_add_mod]
  -- the length field
  have hlen : C.lenPad ++ bytes64 ((d.t + nx * 8) % 2 ^ 64) = padLeft L (natBytes (8 * m.length)) := by
    have e : (d.t + nx * 8) % 2 ^ 64 = 8 * m.length := by rw [ht, ek]; omega
    rw [e, A.lenPad, bytes64_eq _ (by omega), padLeft_more _ _ _ (natBytes_length_le (by omega))]
    congr 1; omega
  have hlenl : (C.lenPad ++ bytes64 ((d.t + nx * 8) % 2 ^ 64)).length = L := by
    rw [List.length_append, bytes64_length, A.lenPad, List.length_replicate]; omega
  have hlast : (if short then (0 : UInt8) else 1) = V.last := A.last.symm
  have hlast' : (if short then (0x80 : UInt8) else 0x81) = 0x80 ||| V.last := by
    rw [A.last]; cases short <;> rfl
  -- one more block
  have hone : ∀ (Q : Bytes) (t0 : ℕ) (b : Bool), nx + Q.length = B → (t0 + 8 * B) % 2 ^ 64 = 8 * m.length →
      (b = true ↔ nx = 0) →
      fn8 (pass C s b (d.h, t0) (d.x ++ Q)).1 = Spec.chain V (fn4 s) (m ++ Q) (8 * m.length) (k + 1) := by
    intro Q t0 b hQ ht0 hb
    have hblk : d.x ++ Q = ((m ++ Q).drop (B * k)).take B := by
      rw [List.drop_append_of_le_length (by omega), List.take_of_length_le, h.x, rest, hk]
      rw [List.length_append, List.length_drop]; omega
    rw [hblk, pass_block A, Spec.chain, chain_prefix A s iv hiv m Q hm k (by show B * k ≤ _; omega), ← hh]
    congr 1
    dsimp only
    rw [hbits, ht0, Spec.counter, ← hBw, ek, Nat.mul_succ, ek]
    by_cases h0 : nx = 0
    · rw [if_pos (hb.mpr h0), if_pos (by omega)]
    · rw [if_neg (by rw [hb]; exact h0), if_neg (by omega)]
      omega
  have hP1 : ∀ Q : Bytes, nx + Q.length = B → (m ++ Q).length / Spec.blockBytes w = k + 1 := by
    intro Q hQ
    rw [← hBw, List.length_append, show m.length + Q.length = B * (k + 1) by rw [Nat.mul_succ]; omega, Nat.mul_div_cancel_left _ hB0]
  have hpl : ∀ (ht : List (BitVec w) × ℕ) (b : Bool) (p : Bytes), (pass C s b ht p).1.length = 8 := by
    intro ht b p; simp [pass]
  unfold finish
  rw [hxl]
  dsimp only
  generalize hlf : C.lenPad ++ bytes64 ((d.t + nx * 8) % 2 ^ 64) = lf at hlen hlenl ⊢
  have hpad : ∀ z, (nx + L) % B + z = B → Spec.pad V m = m ++ ((if z = 1 then [0x80 ||| V.last] else [0x80] ++ List.replicate (z - 2) 0 ++ [V.last]) ++ lf) := by
    intro z hz
    rw [Spec.pad, ← hBw, hmod, show B - (nx + L) % B = z by omega, ← hlen, List.append_assoc]
  rcases Nat.lt_trichotomy nx C.thr with hc | hc | hc
  · rw [if_neg (by omega), if_pos hc]
    have hd : (if nx = 0 then { d with nullt := true } else d) = { d with nullt := decide (nx = 0) } := by
      split
      · rename_i h0; simp [h0]
      · rename_i h0; simp only [h0, decide_false]; rw [← h.nullt]
    rw [hd]
    dsimp only
    have hp : (padArray (2 * B)).take (C.thr - nx) = [0x80] ++ List.replicate (C.thr - nx - 1) 0 :=
      padArray_take _ _ (by omega) (by omega)
    rw [hp, write_short C { d with t := subT d.t (C.thrBits - nx * 8), nullt := decide (nx = 0) } _ (by simp [hxl]; omega)]
    dsimp only
    rw [write_short C _ [_] (by simp [hxl]; omega)]
    dsimp only
    rw [write_full _ _ _ (by simp [hxl]; omega) (by simp [hxl, hlenl]; omega)]
    dsimp only
    refine ⟨?_, by rw [h.s]; exact hpl _ _ _, h.short⟩
    have hz : Spec.pad V m = m ++ ([0x80] ++ List.replicate (C.thr - nx - 1) 0 ++ [V.last] ++ lf) := by
      rw [hpad (C.thr + 1 - nx) (by rw [Nat.mod_eq_of_lt (by omega)]; omega), if_neg (by omega),
        show C.thr + 1 - nx - 2 = C.thr - nx - 1 by omega]
    rw [h.s, h.short, hlast, hz, hP1 _ (by simp [hlenl]; omega)]
    rw [List.append_assoc, List.append_assoc, ← List.append_assoc _ [V.last] lf]
    exact hone _ _ _ (by simp [hlenl]; omega) (by
      rw [subT_add _ _ _ (by omega) (by omega)]; unfold subT; omega) (by simp)
  · rw [if_pos hc]
    have hw1 : Blake.write C { d with t := subT d.t 8 } [if d.short = true then 0x80 else 0x81] =
        { d with t := subT d.t 8, x := d.x ++ [if short = true then 0x80 else 0x81] } := by
      rw [write_short _ _ _ (by simp only [List.length_singleton, hxl]; omega), h.short]
    rw [hw1, write_full _ _ _ (by simp [hxl]; omega) (by simp [hxl, hlenl]; omega)]
    dsimp only
    refine ⟨?_, by rw [h.s]; exact hpl _ _ _, h.short⟩
    have hz : Spec.pad V m = m ++ ([0x80 ||| V.last] ++ lf) := by
      rw [hpad 1 (by rw [Nat.mod_eq_of_lt (by omega)]; omega), if_pos rfl]
    rw [h.s, h.nullt, hlast', List.append_assoc, hz, hP1 _ (by simp [hlenl]; omega)]
    exact hone _ _ _ (by simp [hlenl]; omega) (by rw [subT_add _ _ _ (by omega) (by omega)]; unfold subT; omega)
      (by simp; omega)
  · rw [if_neg (by omega), if_neg (by omega)]
    have hp : (padArray (2 * B)).take (B - nx) = [0x80] ++ List.replicate (B - nx - 1) 0 :=
      padArray_take _ _ (by omega) (by omega)
    have hp2 : ((padArray (2 * B)).take (C.thr + 1)).drop 1 = List.replicate C.thr 0 := by
      rw [padArray_take _ _ (by omega) (by omega)]; simp
    have hz : Spec.pad V m = (m ++ ([0x80] ++ List.replicate (B - nx - 1) 0)) ++ (List.replicate C.thr 0 ++ [V.last] ++ lf) := by
      rw [hpad (B + C.thr + 1 - nx) (by
          rw [show nx + L = (nx + L - B) + B by omega, Nat.add_mod_right, Nat.mod_eq_of_lt (by omega)]; omega), if_neg (by omega),
        show B + C.thr + 1 - nx - 2 = (B - nx - 1) + C.thr by omega, ← List.replicate_append_replicate]
      simp only [List.append_assoc]
    rw [hp, hp2, write_full C { d with t := subT d.t (C.blockBits - nx * 8) } _ (by simp [hxl]; omega) (by simp [hxl]; omega)]
    dsimp only
    rw [write_short C _ (List.replicate _ _) (by simp; omega)]
    dsimp only
    rw [write_short C _ [_] (by simp; omega)]
    dsimp only
    rw [write_full _ _ _ (by simp; omega) (by simp [hlenl]; omega)]
    dsimp only
    refine ⟨?_, by rw [h.s]; exact hpl _ _ _, h.short⟩
    have hPl : (Spec.pad V m).length = B * (k + 2) := by
      rw [hz, show B * (k + 2) = B * k + B + B by rw [Nat.mul_add]; omega]; simp [hlenl]; omega
    have hone1 := hone ([0x80] ++ List.replicate (B - nx - 1) 0) (subT d.t (C.blockBits - nx * 8)) false (by simp; omega)
      (by rw [subT_add _ _ _ (by omega) (by omega)]; omega) (by simp; omega)
    have hchain : Spec.chain V (fn4 s) (m ++ ([0x80] ++ List.replicate (B - nx - 1) 0)) (8 * m.length) (k + 1) =
        Spec.chain V (fn4 s) (Spec.pad V m) (8 * m.length) (k + 1) := by
      rw [hz]
      exact (chain_append V (fn4 s) _ _ _ (k + 1) (by
        rw [← hBw, show C.blockSize * (k + 1) = B * k + B by rw [Nat.mul_succ]]; simp; omega)).symm
    have hblk : [] ++ List.replicate C.thr 0 ++ [if d.short = true then (0 : UInt8) else 1] ++ lf = ((Spec.pad V m).drop (B * (k + 1))).take B := by
      rw [hz, h.short, hlast, List.nil_append]
      have e : B * (k + 1) = (m ++ ([0x80] ++ List.replicate (B - nx - 1) 0)).length := by rw [Nat.mul_succ]; simp; omega
      rw [e, List.drop_left, List.take_of_length_le (by simp [hlenl]; omega)]
    rw [← hBw, hPl, Nat.mul_div_cancel_left _ hB0, hblk, h.s, pass_block A]
    rw [if_pos rfl]
    conv_rhs => rw [Spec.chain]
    rw [← hchain, ← hone1, h.nullt]
    congr 1
    rw [Spec.counter, if_pos]
    rw [← hBw, show 8 * C.blockSize * (k + 1) = 8 * (B * k) + 8 * B by rw [Nat.mul_succ, Nat.mul_assoc]]
    omega

/-- the digest -/
theorem sum_eq {C : Cfg w} {V : Spec.Variant w} {short : Bool} (A : Agree C V short) {s iv : List (BitVec w)}
    (hiv : fn8 iv = V.iv) {d : St w} {m : Bytes} (h : Absorbed C iv s short d m) (hm : m.length < 2 ^ 61) (inp : Bytes) :
    sum C d inp = inp ++ Spec.hash V (fn4 s) m := by
  obtain ⟨h1, h2, h3⟩ := finish_eq A hiv h hm
  rw [sum, Spec.hash, ← h1, h3, A.outWords]
  have e : List.ofFn (fn8 (finish C d).h) = (finish C d).h := by
    apply List.ext_getElem
    · simp [h2]
    · intro i hi hi'
      rw [List.getElem_ofFn]
      simp [fn8, List.getD, hi']
  rw [e]
  congr 2
  funext x
  exact A.outWord x

/-! ## The four functions -/

theorem agree256 : Agree cfg256 Spec.blake256 false where
  hw := Or.inl rfl
  blockSize := rfl
  blockBits := rfl
  thr := rfl
  thrBits := rfl
  lenBits := rfl
  lenPad := rfl
  cst := by decide
  prog := by decide +kernel
  hR := by decide
  ctr := fun _ _ => rfl
  word := fun _ => rfl
  outWord := fun x => bytes32_eq x
  last := rfl
  outWords := rfl

theorem agree224 : Agree cfg256 Spec.blake224 true where
  hw := Or.inl rfl
  blockSize := rfl
  blockBits := rfl
  thr := rfl
  thrBits := rfl
  lenBits := rfl
  lenPad := rfl
  cst := by decide
  prog := by decide +kernel
  hR := by decide
  ctr := fun _ _ => rfl
  word := fun _ => rfl
  outWord := fun x => bytes32_eq x
  last := rfl
  outWords := rfl

theorem agree512 : Agree cfg512 Spec.blake512 false where
  hw := Or.inr rfl
  blockSize := rfl
  blockBits := rfl
  thr := rfl
  thrBits := rfl
  lenBits := rfl
  lenPad := rfl
  cst := by decide
  prog := by decide +kernel
  hR := by decide
  ctr := fun t ht => by rw [Nat.div_eq_of_lt ht]; rfl
  word := fun _ => rfl
  outWord := fun x => bytes64_eq x.toNat x.isLt
  last := rfl
  outWords := rfl

theorem agree384 : Agree cfg512 Spec.blake384 true where
  hw := Or.inr rfl
  blockSize := rfl
  blockBits := rfl
  thr := rfl
  thrBits := rfl
  lenBits := rfl
  lenPad := rfl
  cst := by decide
  prog := by decide +kernel
  hR := by decide
  ctr := fun t ht => by rw [Nat.div_eq_of_lt ht]; rfl
  word := fun _ => rfl
  outWord := fun x => bytes64_eq x.toNat x.isLt
  last := rfl
  outWords := rfl

theorem fn_iv256 : fn8 iv256 = Spec.blake256.iv := by funext i; fin_cases i <;> rfl
theorem fn_iv224 : fn8 iv224 = Spec.blake224.iv := by funext i; fin_cases i <;> rfl
theorem fn_iv512 : fn8 iv512 = Spec.blake512.iv := by funext i; fin_cases i <;> rfl
theorem fn_iv384 : fn8 iv384 = Spec.blake384.iv := by funext i; fin_cases i <;> rfl
theorem fn_noSalt : fn4 (noSalt : List (BitVec w)) = fun _ => 0 := by funext i; fin_cases i <;> rfl

end Verif.Blake
