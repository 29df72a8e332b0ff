import Verif.Hash.Blake2s
import Verif.Hash.Blake2sSpec
import Verif.Hash.BlakeLemmas

/-! # The BLAKE2s model computes the function of RFC 7693 -/

namespace Verif.Blake2s

open Verif.Hash Verif.Blake

/-! ## One block -/

theorem prog2s_eq : prog2s = (List.range 10).flatMap fun r => schedule ![16, 12, 8, 7] (fun i => Blake.Spec.sig r (2 * i.val))
    (fun _ => 0) (fun i => Blake.Spec.sig r (2 * i.val + 1)) (fun _ => 0) := by decide +kernel

theorem rounds_eq (m : ℕ → BitVec 32) (n : ℕ) (v : Vars 32) (hv : v.length = 16) :
    toFn ((List.range n).foldl (fun s r => (schedule ![16, 12, 8, 7] (fun i => Blake.Spec.sig r (2 * i.val))
      (fun _ => 0) (fun i => Blake.Spec.sig r (2 * i.val + 1)) (fun _ => 0)).foldl (exec fun i _ => m i) s) v) =
    (List.range n).foldl (fun v r => Blake.Spec.round ![16, 12, 8, 7] (fun i => m (Blake.Spec.sig r (2 * i.val)))
      (fun i => m (Blake.Spec.sig r (2 * i.val + 1))) v) (toFn v) ∧
    ((List.range n).foldl (fun s r => (schedule ![16, 12, 8, 7] (fun i => Blake.Spec.sig r (2 * i.val))
      (fun _ => 0) (fun i => Blake.Spec.sig r (2 * i.val + 1)) (fun _ => 0)).foldl (exec fun i _ => m i) s) v).length = 16 := by
  induction n with
  | zero => exact ⟨rfl, hv⟩
  | succ n ih =>
    rw [List.range_succ, List.foldl_append, List.foldl_append]
    simp only [List.foldl_cons, List.foldl_nil]
    have := exec_schedule ![16, 12, 8, 7] (by decide) (fun i => Blake.Spec.sig n (2 * i.val)) (fun _ => 0)
      (fun i => Blake.Spec.sig n (2 * i.val + 1)) (fun _ => 0) (fun i _ => m i) _ ih.2
    exact ⟨by rw [this.1, ih.1], this.2⟩

/-- the counter as one number. -/
def tval (t0 t1 : ℕ) : ℕ := t1 * 2 ^ 32 + t0

theorem pass_fst (f0 f1 : BitVec 32) (s : List (BitVec 32) × ℕ × ℕ) (p : Bytes) (final lastNode : Bool) (t : ℕ)
    (hf : f0 = if final then 0xFFFFFFFF else 0) (hl : f1 = if lastNode then 0xFFFFFFFF else 0)
    (h0 : (pass f0 f1 s p).2.1 = t % 2 ^ 32) (h1 : (pass f0 f1 s p).2.2 = t / 2 ^ 32 % 2 ^ 32) :
    fn8 (pass f0 f1 s p).1 = Spec.F (fn8 s.1) (fun j => Spec.wordAt p (4 * j)) t final lastNode := by
  have hv : ∃ v : Vars 32, v.length = 16 ∧ (pass f0 f1 s p).1 = (List.range 8).map (fun i => s.1.getD i 0 ^^^
      ((prog2s.foldl (exec fun i _ => word (p.drop (4 * i))) v).getD i 0 ^^^
        (prog2s.foldl (exec fun i _ => word (p.drop (4 * i))) v).getD (i + 8) 0)) ∧
      toFn v = ![fn8 s.1 0, fn8 s.1 1, fn8 s.1 2, fn8 s.1 3, fn8 s.1 4, fn8 s.1 5, fn8 s.1 6, fn8 s.1 7, Spec.IV 0, Spec.IV 1,
        Spec.IV 2, Spec.IV 3, Spec.IV 4 ^^^ BitVec.ofNat 32 (pass f0 f1 s p).2.1, Spec.IV 5 ^^^ BitVec.ofNat 32 (pass f0 f1 s p).2.2,
        Spec.IV 6 ^^^ f0, Spec.IV 7 ^^^ f1] :=
    ⟨_, rfl, rfl, toFn_16 ..⟩
  obtain ⟨v, hlen, he, hv⟩ := hv
  rw [h0, h1] at hv
  have e0 : BitVec.ofNat 32 (t % 2 ^ 32) = BitVec.ofNat 32 t := by apply BitVec.eq_of_toNat_eq; simp
  have e1 : BitVec.ofNat 32 (t / 2 ^ 32 % 2 ^ 32) = BitVec.ofNat 32 (t / 2 ^ 32) := by apply BitVec.eq_of_toNat_eq; simp
  rw [e0, e1, hf, hl] at hv
  have hr := (rounds_eq (fun i => word (p.drop (4 * i))) 10 v hlen).1
  rw [← foldl_flatMap, ← prog2s_eq, hv] at hr
  have hn : ∀ i (hi : i < 16), (prog2s.foldl (exec fun i _ => word (p.drop (4 * i))) v).getD i 0 =
      toFn (prog2s.foldl (exec fun i _ => word (p.drop (4 * i))) v) ⟨i, hi⟩ := fun _ _ => rfl
  funext i
  rw [he, fn8, getD_map_range _ _ _ i.isLt, hn _ (by omega), hn _ (by omega), hr, ← BitVec.xor_assoc]
  rfl

theorem pass_t (f0 f1 : BitVec 32) (s : List (BitVec 32) × ℕ × ℕ) (p : Bytes) (t : ℕ) (h0 : s.2.1 = t % 2 ^ 32)
    (h1 : s.2.2 = t / 2 ^ 32 % 2 ^ 32) :
    (pass f0 f1 s p).2.1 = (t + 64) % 2 ^ 32 ∧ (pass f0 f1 s p).2.2 = (t + 64) / 2 ^ 32 % 2 ^ 32 := by
  unfold pass
  dsimp only
  rw [h0, h1]
  constructor
  · omega
  · split <;> omega

/-! ## Processing all but the last block -/

section
variable {S : Type} (f : S → Bytes → S)

/-- all blocks but the last, which may be full. -/
def lazyBlocks (s : S) (m : Bytes) : S := runBlocks 64 f ((m.length - 1) / 64) s m
/-- the last block. -/
def lazyRest (m : Bytes) : Bytes := m.drop (64 * ((m.length - 1) / 64))

theorem lazy_append (s : S) (a b : Bytes) :
    lazyBlocks f (lazyBlocks f s a) (lazyRest a ++ b) = lazyBlocks f s (a ++ b) ∧ lazyRest (lazyRest a ++ b) = lazyRest (a ++ b) := by
  have hl : (lazyRest a ++ b).length = a.length - 64 * ((a.length - 1) / 64) + b.length := by simp [lazyRest]
  have hle : 64 * ((a.length - 1) / 64) ≤ a.length := by omega
  have hd : ((a ++ b).length - 1) / 64 = (a.length - 1) / 64 + ((lazyRest a ++ b).length - 1) / 64 := by
    rw [hl, List.length_append]; omega
  have hdrop : (a ++ b).drop (64 * ((a.length - 1) / 64)) = lazyRest a ++ b := by
    rw [List.drop_append_of_le_length hle]; rfl
  constructor
  · unfold lazyBlocks
    rw [hd, runBlocks_add, hdrop, runBlocks_append _ _ _ _ _ _ hle]
  · conv_rhs => unfold lazyRest
    rw [hd, Nat.mul_add, ← List.drop_drop, hdrop]
    rfl

theorem lazyRest_length (m : Bytes) : (lazyRest m).length ≤ 64 := by
  rw [lazyRest, List.length_drop]; omega

theorem lazy_short (s : S) (m : Bytes) (h : m.length ≤ 64) : lazyBlocks f s m = s ∧ lazyRest m = m := by
  unfold lazyBlocks lazyRest
  rw [show (m.length - 1) / 64 = 0 by omega]
  exact ⟨rfl, by simp⟩

theorem lazy_cons (s : S) (a b : Bytes) (ha : a.length = 64) (hb : 0 < b.length) :
    lazyBlocks f s (a ++ b) = lazyBlocks f (f s a) b ∧ lazyRest (a ++ b) = lazyRest b := by
  unfold lazyBlocks lazyRest
  rw [List.length_append, ha, show (64 + b.length - 1) / 64 = (b.length - 1) / 64 + 1 by omega, runBlocks,
    List.take_append_of_le_length (by omega), List.drop_append_of_le_length (by omega), List.take_of_length_le (by omega),
    List.drop_of_length_le (by omega), List.nil_append, Nat.mul_succ, Nat.add_comm, ← List.drop_drop]
  refine ⟨rfl, ?_⟩
  rw [List.drop_append_of_le_length (by omega), show a.drop 64 = [] from List.drop_of_length_le (by omega), List.nil_append]

end

theorem fullBlocks_mult {S : Type} (f : S → Bytes → S) (s : S) (p : Bytes) :
    fullBlocks 64 f s (p.take (64 * ((p.length - 1) / 64))) = lazyBlocks f s p := by
  unfold fullBlocks lazyBlocks
  rw [List.length_take, Nat.min_eq_left (by omega), Nat.mul_div_cancel_left _ (by decide), runBlocks_take _ _ _ _ _ (by omega)]

/-- `Write`. -/
theorem write_eq (d : St) (p : Bytes) (hx : d.x.length ≤ 64) :
    write d p = { d with
      h := (lazyBlocks (pass d.f0 d.f1) (d.h, d.t0, d.t1) (d.x ++ p)).1
      t0 := (lazyBlocks (pass d.f0 d.f1) (d.h, d.t0, d.t1) (d.x ++ p)).2.1
      t1 := (lazyBlocks (pass d.f0 d.f1) (d.h, d.t0, d.t1) (d.x ++ p)).2.2
      x := lazyRest (d.x ++ p) } := by
  unfold write
  by_cases hp : p.length > 64 - d.x.length
  · simp only [hp, if_true]
    have hA : (d.x ++ p.take (64 - d.x.length)).length = 64 := by rw [List.length_append, List.length_take]; omega
    have hone := one_block 64 (pass d.f0 d.f1) (by decide) (d.h, d.t0, d.t1) _ hA
    have hc := lazy_cons (pass d.f0 d.f1) (d.h, d.t0, d.t1) _ (p.drop (64 - d.x.length)) hA (by rw [List.length_drop]; omega)
    rw [List.append_assoc, List.take_append_drop] at hc
    rw [hc.1, hc.2]
    unfold blocks
    dsimp only
    rw [hone.1]
    generalize p.drop (64 - d.x.length) = q
    by_cases hq : q.length > 64
    · simp only [hq, if_true]
      have hn : (if q.length / 64 * 64 = q.length then q.length / 64 * 64 - 64 else q.length / 64 * 64) = 64 * ((q.length - 1) / 64) := by
        split <;> omega
      rw [hn, fullBlocks_mult]
      simp only [List.length_nil, Nat.sub_zero, List.nil_append]
      have e : List.take 64 (List.drop (64 * ((q.length - 1) / 64)) q) = lazyRest q := List.take_of_length_le (lazyRest_length q)
      rw [e]
    · simp only [hq, if_false]
      have := lazy_short (pass d.f0 d.f1) (pass d.f0 d.f1 (d.h, d.t0, d.t1) (d.x ++ p.take (64 - d.x.length))) q (by omega)
      rw [this.1, this.2]
      simp only [List.length_nil, Nat.sub_zero, List.nil_append]
      rw [show q.take 64 = q from List.take_of_length_le (by omega)]
  · have h2 : ¬ p.length > 64 := by omega
    simp only [hp, h2, if_false]
    have := lazy_short (pass d.f0 d.f1) (d.h, d.t0, d.t1) (d.x ++ p) (by rw [List.length_append]; omega)
    rw [this.1, this.2, List.take_of_length_le (by omega)]

/-! ## The chaining value -/

theorem F_congr (h : Fin 8 → BitVec 32) (m m' : ℕ → BitVec 32) (t : ℕ) (a b : Bool) (hm : ∀ j, j < 16 → m j = m' j) :
    Spec.F h m t a b = Spec.F h m' t a b := by
  unfold Spec.F
  simp only [fun r j => hm (Blake.Spec.sig r j) (sig_lt r j)]

theorem wordAt_block (P : Bytes) (i j : ℕ) (hj : j < 16) :
    Spec.wordAt ((P.drop (64 * i)).take 64) (4 * j) = Spec.wordAt P (64 * i + 4 * j) := by
  rw [Spec.wordAt, Spec.wordAt, List.drop_take, List.take_take, List.drop_drop, Nat.min_eq_left (by omega)]

theorem passes (h0 : List (BitVec 32)) (m Q : Bytes) (k : ℕ) (hk : 64 * k ≤ m.length) :
    (runBlocks 64 (pass 0 0) k (h0, 0, 0) m).2.1 = (64 * k) % 2 ^ 32 ∧
    (runBlocks 64 (pass 0 0) k (h0, 0, 0) m).2.2 = (64 * k) / 2 ^ 32 % 2 ^ 32 ∧
    fn8 (runBlocks 64 (pass 0 0) k (h0, 0, 0) m).1 = Spec.chain (fn8 h0) (m ++ Q) k := by
  induction k with
  | zero => exact ⟨rfl, rfl, rfl⟩
  | succ k ih =>
    obtain ⟨i0, i1, i2⟩ := ih (by omega)
    rw [runBlocks_add, runBlocks, runBlocks]
    have ht := pass_t 0 0 _ ((m.drop (64 * k)).take 64) (64 * k) i0 i1
    refine ⟨ht.1, ht.2, ?_⟩
    rw [pass_fst 0 0 _ _ false false (64 * (k + 1)) rfl rfl ht.1 ht.2, i2, Spec.chain]
    apply F_congr
    intro j hj
    have hb : (m.drop (64 * k)).take 64 = ((m ++ Q).drop (64 * k)).take 64 := by
      rw [List.drop_append_of_le_length (by omega), List.take_append_of_le_length (by rw [List.length_drop]; omega)]
    rw [hb, wordAt_block _ _ _ hj]

/-- the digest after the input `D` (with the key block), from the initial chaining value `h0`. -/
structure Absorbed (h0 : List (BitVec 32)) (keyBlock : Bytes) (size : UInt8) (lastNode : Bool) (d : St) (D : Bytes) : Prop where
  x : d.x = lazyRest D
  st : (d.h, d.t0, d.t1) = lazyBlocks (pass 0 0) (h0, 0, 0) D
  f0 : d.f0 = 0
  f1 : d.f1 = 0
  ih : d.ih = h0
  keyed : d.isKeyed = decide (keyBlock ≠ [])
  key : d.paddedKey = keyBlock
  size : d.size = size
  lastNode : d.isLastNode = lastNode

theorem Absorbed.write {h0 : List (BitVec 32)} {kb : Bytes} {size : UInt8} {ln : Bool} {d : St} {D : Bytes}
    (h : Absorbed h0 kb size ln d D) (p : Bytes) : Absorbed h0 kb size ln (write d p) (D ++ p) := by
  have hx : d.x.length ≤ 64 := by rw [h.x]; exact lazyRest_length D
  have ha := lazy_append (pass 0 0) (h0, 0, 0) D p
  rw [write_eq d p hx]
  refine ⟨?_, ?_, h.f0, h.f1, h.ih, h.keyed, h.key, h.size, h.lastNode⟩
  · rw [h.x]; exact ha.2
  · rw [← ha.1, ← h.st, ← h.x, h.f0, h.f1]

theorem Absorbed.reset {h0 : List (BitVec 32)} {kb : Bytes} {size : UInt8} {ln : Bool} {d : St} {D : Bytes}
    (h : Absorbed h0 kb size ln d D) : Absorbed h0 kb size ln (reset d) kb := by
  have h' : Absorbed h0 kb size ln { d with h := d.ih, t0 := 0, t1 := 0, f0 := 0, f1 := 0, x := [] } [] :=
    ⟨rfl, by rw [h.ih]; rfl, rfl, rfl, h.ih, h.keyed, h.key, h.size, h.lastNode⟩
  have hr : Blake2s.reset d = if d.isKeyed then Blake2s.write { d with h := d.ih, t0 := 0, t1 := 0, f0 := 0, f1 := 0, x := [] } d.paddedKey
      else { d with h := d.ih, t0 := 0, t1 := 0, f0 := 0, f1 := 0, x := [] } := rfl
  rw [hr]
  by_cases hk : kb = []
  · rw [if_neg (by rw [h.keyed]; simp [hk])]
    conv in (occs := 2) kb => rw [hk]
    exact h'
  · rw [if_pos (by rw [h.keyed]; simp [hk]), h.key]
    have := h'.write kb
    rw [h.key, List.nil_append] at this
    exact this

/-! ## The digest -/

theorem bytes_eq (x : BitVec 32) : bytes x = Spec.le 4 x.toNat := by
  simp [bytes, Spec.le, List.range_succ]

theorem flatMap_take (h : List (BitVec 32)) (k : ℕ) : (h.take k).flatMap bytes = (h.flatMap bytes).take (4 * k) := by
  induction h generalizing k with
  | nil => simp
  | cons a l ih =>
    cases k with
    | zero => simp
    | succ k =>
      rw [List.take_succ_cons, List.flatMap_cons, List.flatMap_cons, ih, List.take_append]
      have hl : (bytes a).length = 4 := rfl
      rw [show (bytes a).take (4 * (k + 1)) = bytes a from List.take_of_length_le (by omega), hl, show 4 * (k + 1) - 4 = 4 * k by omega]

theorem flatMap_bytes_length (h : List (BitVec 32)) : (h.flatMap bytes).length = 4 * h.length := by
  induction h with
  | nil => rfl
  | cons a l ih => rw [List.flatMap_cons, List.length_append, ih]; simp [bytes]; omega

/-- `checkSum`, cut to the digest size. -/
theorem checkSum_eq {h0 : List (BitVec 32)} {kb : Bytes} {size : UInt8} {ln : Bool} {d : St} {D : Bytes}
    (h : Absorbed h0 kb size ln d D) (hs : 0 < size.toNat) (hs' : size.toNat ≤ 32) :
    (checkSum d).take size.toNat =
      ((List.ofFn (Spec.F (Spec.chain (fn8 h0) (Spec.zeroPad (64 * Spec.blockCount D.length) D) (Spec.blockCount D.length - 1))
        (fun j => Spec.wordAt (Spec.zeroPad (64 * Spec.blockCount D.length) D) (64 * (Spec.blockCount D.length - 1) + 4 * j))
        D.length true ln)).flatMap fun x => Spec.le 4 x.toNat).take size.toNat ∧ (checkSum d).length = 32 := by
  set n := Spec.blockCount D.length with hn
  have hn1 : n - 1 = (D.length - 1) / 64 := by rw [hn, Spec.blockCount]; omega
  have hnle : D.length ≤ 64 * n := by rw [hn, Spec.blockCount]; omega
  have hnpos : 1 ≤ n := by rw [hn, Spec.blockCount]; omega
  have hxl : d.x.length + 64 * (n - 1) = D.length := by
    rw [h.x, lazyRest, List.length_drop, hn1]; omega
  have hx64 : d.x.length ≤ 64 := by omega
  obtain ⟨p0, p1, p2⟩ := passes h0 D (List.replicate (64 * n - D.length) 0) (n - 1) (by omega)
  have hst : (d.h, d.t0, d.t1) = runBlocks 64 (pass 0 0) (n - 1) (h0, 0, 0) D := by rw [h.st, lazyBlocks, hn1]
  rw [← hst] at p0 p1 p2
  dsimp only at p0 p1 p2
  have hblk : (d.x ++ List.replicate (64 - d.x.length) 0).length = 64 := by simp; omega
  have hblk' : d.x ++ List.replicate (64 - d.x.length) 0 = ((Spec.zeroPad (64 * n) D).drop (64 * (n - 1))).take 64 := by
    rw [Spec.zeroPad, List.drop_append_of_le_length (by omega), List.take_of_length_le, h.x, lazyRest, hn1]
    · congr 2
      rw [List.length_drop]; omega
    · simp; omega
  have hs0 : d.size = size := h.size
  unfold checkSum blocks
  dsimp only
  rw [(one_block 64 _ (by decide) _ _ hblk).1]
  generalize hc0 : (d.t0 + 2 ^ 32 - (64 - d.x.length)) % 2 ^ 32 = c0
  generalize hc1 : (if d.t0 < 64 - d.x.length then (d.t1 + 2 ^ 32 - 1) % 2 ^ 32 else d.t1) = c1
  have hc0' : c0 = (64 * (n - 1) + 2 ^ 64 - (64 - d.x.length)) % 2 ^ 32 := by rw [← hc0, p0]; omega
  have hc1' : c1 = (64 * (n - 1) + 2 ^ 64 - (64 - d.x.length)) / 2 ^ 32 % 2 ^ 32 := by
    rw [← hc1, p0, p1]; split <;> omega
  have hln : (if d.isLastNode = true then (0xffffffff : BitVec 32) else d.f1) = if ln then 0xFFFFFFFF else 0 := by
    rw [h.lastNode, h.f1]
  rw [hln]
  generalize hblkE : d.x ++ List.replicate (64 - d.x.length) 0 = blk at hblk hblk'
  have ht := pass_t 0xffffffff (if ln then 0xFFFFFFFF else 0) (d.h, c0, c1) blk _ hc0' hc1'
  have hF := pass_fst 0xffffffff (if ln then 0xFFFFFFFF else 0) (d.h, c0, c1) blk true ln D.length rfl rfl
    (by rw [ht.1]; omega) (by rw [ht.2]; omega)
  have hlen : (pass 0xffffffff (if ln then 0xFFFFFFFF else 0) (d.h, c0, c1) blk).1.length = 8 := by simp [pass]
  generalize hg : (pass 0xffffffff (if ln then 0xFFFFFFFF else 0) (d.h, c0, c1) blk).1 = g at hF hlen
  have hofn : List.ofFn (fn8 g) = g := by
    apply List.ext_getElem
    · simp [hlen]
    · intro i hi hi'
      rw [List.getElem_ofFn]
      simp [fn8, List.getD, hi']
  have hF' : fn8 g = Spec.F (Spec.chain (fn8 h0) (Spec.zeroPad (64 * n) D) (n - 1))
      (fun j => Spec.wordAt (Spec.zeroPad (64 * n) D) (64 * (n - 1) + 4 * j)) D.length true ln := by
    rw [hF, p2, hblk']
    exact F_congr _ _ _ _ _ _ fun j hj => wordAt_block _ _ _ hj
  rw [← hF', hofn, hs0, flatMap_take]
  have hb := flatMap_bytes_length g
  have hbl : g.flatMap bytes = g.flatMap fun x => Spec.le 4 x.toNat := by congr 1; funext x; exact bytes_eq x
  have hm : (size.toNat + 255) % 256 / 4 = (size.toNat - 1) / 4 := by omega
  rw [hm]
  constructor
  · rw [List.take_append_of_le_length (by rw [List.length_take, hb]; omega), List.take_take, Nat.min_eq_left (by omega), hbl]
  · simp [hb, hlen]

/-! ## The constructors -/

/-- the parameters of a configuration, as in the specification. -/
def Config.params (c : Config) : Spec.Params :=
  match c.tree with
  | some t => { outLen := c.size.toNat, key := c.key, fanout := t.fanout.toNat, depth := t.maxDepth.toNat, leafLen := t.leafSize,
                nodeOffset := t.nodeOffset, nodeDepth := t.nodeDepth.toNat, innerLen := t.innerHashSize.toNat, salt := c.salt,
                person := c.person, lastNode := t.isLastNode }
  | none => { outLen := c.size.toNat, key := c.key, salt := c.salt, person := c.person }

theorem padRight_eq (n : ℕ) (b : Bytes) (h : b.length ≤ n) : padRight n b = Spec.zeroPad n b := by
  rw [padRight, Spec.zeroPad, List.take_of_length_le h]

theorem le_one (x : UInt8) : Spec.le 1 x.toNat = [x] := by simp [Spec.le]

theorem params_eq (c : Config) (hs : c.salt.length ≤ 8) (hp : c.person.length ≤ 8) : params c = c.params.block := by
  rw [params, padRight_eq _ _ hs, padRight_eq _ _ hp]
  unfold Config.params Spec.Params.block
  cases c.tree with
  | none => simp [le_one, Spec.le, List.range_succ]
  | some t => simp [le_one, Spec.le, List.range_succ]

/-- the key block. -/
def keyBlock (key : Bytes) : Bytes := if key = [] then [] else Spec.zeroPad 64 key

theorem keyBlock_ne (key : Bytes) : keyBlock key ≠ [] ↔ key ≠ [] := by
  unfold keyBlock
  split
  · simp_all
  · rename_i h; simp [Spec.zeroPad, h]

/-- the initial chaining value -/
def initH (c : Config) : List (BitVec 32) := (List.range 8).map fun i => iv.getD i 0 ^^^ word ((params c).drop (i * 4))

theorem fn_initH (c : Config) (hs : c.salt.length ≤ 8) (hp : c.person.length ≤ 8) :
    fn8 (initH c) = fun i => Spec.IV i ^^^ Spec.wordAt c.params.block (4 * i.val) := by
  funext i
  rw [fn8, initH, getD_map_range _ _ _ i.isLt, params_eq c hs hp, Nat.mul_comm]
  have : iv.getD i.val 0 = Spec.IV i := by revert i; decide
  rw [this]; rfl

theorem absorbed_init (c : Config) (hk : c.key.length ≤ 32) :
    Absorbed (initH c) (keyBlock c.key) c.size c.params.lastNode (initDigest c) (keyBlock c.key) := by
  have hln : c.params.lastNode = match c.tree with | some t => t.isLastNode | none => false := by
    unfold Config.params; cases c.tree <;> rfl
  by_cases h0 : c.key = []
  · have : initDigest c = ⟨initH c, 0, 0, 0, 0, [], initH c, [], false, c.size, c.params.lastNode⟩ := by
      rw [hln]
      unfold initDigest
      dsimp only
      rw [if_neg (by simp [h0])]
      rfl
    rw [this, keyBlock, if_pos h0]
    exact ⟨rfl, rfl, rfl, rfl, rfl, rfl, rfl, rfl, rfl⟩
  · have hpos : 0 < c.key.length := List.length_pos_iff.mpr h0
    have hkb : keyBlock c.key = padRight 64 c.key := by rw [keyBlock, if_neg h0, padRight_eq _ _ (by omega)]
    have hkl : (padRight 64 c.key).length = 64 := by rw [padRight_eq _ _ (by omega), Spec.zeroPad]; simp; omega
    have hw : ∀ d : St, d.x = [] → write d (padRight 64 c.key) = { d with x := padRight 64 c.key } := by
      intro d hx
      rw [write_eq d _ (by rw [hx]; decide), hx, List.nil_append]
      have := lazy_short (pass d.f0 d.f1) (d.h, d.t0, d.t1) (padRight 64 c.key) (by omega)
      rw [this.1, this.2]
    have : initDigest c = ⟨initH c, 0, 0, 0, 0, padRight 64 c.key, initH c, padRight 64 c.key, true, c.size,
        c.params.lastNode⟩ := by
      rw [hln]
      unfold initDigest
      dsimp only
      rw [if_pos hpos, hw _ rfl]
      rfl
    rw [this, hkb]
    have hsh := lazy_short (pass 0 0) (initH c, 0, 0) (padRight 64 c.key) (by omega)
    refine ⟨hsh.2.symm, hsh.1.symm, rfl, rfl, rfl, ?_, rfl, rfl, rfl⟩
    have : padRight 64 c.key ≠ [] := by intro h; rw [h] at hkl; simp at hkl
    simp [this]

/-- the digest of a configuration that `New` accepts, after the bytes `m`, is the one of the specification. -/
theorem sum_eq (c : Config) (hc : verifyConfig c = true) (h0 : c.size ≠ 0) {d : St} {m : Bytes}
    (h : Absorbed (initH c) (keyBlock c.key) c.size c.params.lastNode d (keyBlock c.key ++ m)) (inp : Bytes) :
    sum d inp = inp ++ Spec.hash c.params m ∧ (sum d inp).length = inp.length + c.size.toNat := by
  simp only [verifyConfig, Bool.and_eq_true, decide_eq_true_eq] at hc
  obtain ⟨⟨⟨⟨hs, hk⟩, hsalt⟩, hper⟩, -⟩ := hc
  have hs0 : 0 < c.size.toNat := by
    rcases Nat.eq_zero_or_pos c.size.toNat with h | h
    · exact absurd (UInt8.toNat_inj.mp (by simpa using h)) h0
    · exact h
  have hs1 : c.size.toNat ≤ 32 := by simpa using UInt8.le_iff_toNat_le.mp hs
  have hsum := checkSum_eq h hs0 hs1
  have hkey : c.params.key = c.key := by unfold Config.params; cases c.tree <;> rfl
  have hout : c.params.outLen = c.size.toNat := by unfold Config.params; cases c.tree <;> rfl
  rw [sum, h.size]
  constructor
  · rw [hsum.1, Spec.hash, Spec.input, hkey, hout]
    rw [← fn_initH c hsalt hper]
    rfl
  · rw [List.length_append, List.length_take, hsum.2, Nat.min_eq_left hs1]

end Verif.Blake2s
