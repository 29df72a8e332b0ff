import Verif.Hash.ObjLemmas
import Verif.Hash.SM3Lemmas
import Verif.Hash.SHA3Lemmas
import Verif.Hash.BlakeLemmas
import Verif.Hash.Blake2sLemmas

/-! # The hash objects compute their functions -/

namespace Verif.Hash

/-! ## SM3 -/

theorem sm3_ext {s t : SM3.St} {m : Bytes} (hs : SM3.Absorbed s m) (ht : SM3.Absorbed t m) : s = t := by
  obtain ⟨a, b, c⟩ := s
  obtain ⟨a', b', c'⟩ := t
  have h1 : a = a' := hs.digest.trans ht.digest.symm
  have h2 : b = b' := hs.length.trans ht.length.symm
  have h3 : c = c' := hs.unhandled.trans ht.unhandled.symm
  rw [h1, h2, h3]

theorem sm3_writes (ps : List Bytes) (s : SM3.St) (m : Bytes) (h : SM3.Absorbed s m) :
    ∃ s', sm3Obj.writes s ps = .ret s' ∧ SM3.Absorbed s' (m ++ ps.flatten) := by
  induction ps generalizing s m with
  | nil => exact ⟨s, rfl, by simpa using h⟩
  | cons p ps ih =>
    obtain ⟨t, e, h2⟩ := ih _ _ (h.write p)
    exact ⟨t, e, by rw [List.flatten_cons, ← List.append_assoc]; exact h2⟩

/-! ## SHA-3 -/

theorem sha3_computes {r : ℕ} (hr : SHA3.RateOk r) (ds : UInt8) (ol N : ℕ) :
    Computes (sha3Obj (SHA3.new r ol ds)) (fun m => SHA3.Spec.sponge r ds m ol) N (SHA3.Absorbed r ds ol) where
  init := SHA3.absorbed_new hr ds ol
  write s m p h := h.write p
  sum s m b h _ := ⟨s, by show (SHA3.sum s b >>= fun out => Go.ret (s, out)) = _; rw [h.sum]; rfl, h⟩
  reset s m h := h.reset

theorem rate136 : SHA3.RateOk 136 := ⟨by decide, by decide, by decide⟩
theorem rate72 : SHA3.RateOk 72 := ⟨by decide, by decide, by decide⟩
theorem rate144 : SHA3.RateOk 144 := ⟨by decide, by decide, by decide⟩
theorem rate104 : SHA3.RateOk 104 := ⟨by decide, by decide, by decide⟩
theorem rate168 : SHA3.RateOk 168 := ⟨by decide, by decide, by decide⟩

/-! ## BLAKE -/

theorem blake_computes {w : ℕ} {C : Blake.Cfg w} {V : Blake.Spec.Variant w} {short : Bool} (A : Blake.Agree C V short)
    {iv salt : List (BitVec w)} (hiv : Blake.fn8 iv = V.iv) :
    Computes (blakeObj C short iv salt) (Blake.Spec.hash V (Blake.fn4 salt)) (2 ^ 61) (Blake.Absorbed C iv salt short) where
  init := Blake.absorbed_new C iv salt short
  write s m p h := ⟨_, rfl, h.write (by rw [A.blockSize, Blake.Spec.blockBytes]; have := A.hw; omega) p⟩
  sum s m b h hm := ⟨s, by show Go.ret (s, Blake.sum C s b) = _; rw [Blake.sum_eq A hiv h hm], h⟩
  reset s m h := h.reset

theorem blake_ext {w : ℕ} {C : Blake.Cfg w} {iv salt : List (BitVec w)} {short : Bool} {s t : Blake.St w} {m : Bytes}
    (hs : Blake.Absorbed C iv salt short s m) (ht : Blake.Absorbed C iv salt short t m) : s = t := by
  obtain ⟨s1, s2, s3, s4, s5, s6⟩ := s
  obtain ⟨t1, t2, t3, t4, t5, t6⟩ := t
  have h1 : s1 = t1 := hs.short.trans ht.short.symm
  have h2 : (s2, s4) = (t2, t4) := hs.ht.trans ht.ht.symm
  have h3 : s3 = t3 := hs.s.trans ht.s.symm
  have h5 : s5 = t5 := hs.nullt.trans ht.nullt.symm
  have h6 : s6 = t6 := hs.x.trans ht.x.symm
  rw [h1, h3, h5, h6, (Prod.mk.inj h2).1, (Prod.mk.inj h2).2]

theorem blake_writes {w : ℕ} {C : Blake.Cfg w} (hB : 0 < C.blockSize) {iv salt : List (BitVec w)} {short : Bool} (ps : List Bytes)
    (s : Blake.St w) (m : Bytes) (h : Blake.Absorbed C iv salt short s m) :
    ∃ s', (blakeObj C short iv salt).writes s ps = .ret s' ∧ Blake.Absorbed C iv salt short s' (m ++ ps.flatten) := by
  induction ps generalizing s m with
  | nil => exact ⟨s, rfl, by simpa using h⟩
  | cons p ps ih =>
    obtain ⟨t, e, h2⟩ := ih _ _ (h.write hB p)
    exact ⟨t, e, by rw [List.flatten_cons, ← List.append_assoc]; exact h2⟩

theorem runBlocks_len {w : ℕ} (C : Blake.Cfg w) (s : List (BitVec w)) (b : Bool) (k n : ℕ) (ht : List (BitVec w) × ℕ)
    (h : ht.1.length = 8) (p : Bytes) : (runBlocks n (Blake.pass C s b) k ht p).1.length = 8 := by
  induction k generalizing ht p with
  | zero => exact h
  | succ k ih => exact ih _ (by simp [Blake.pass]) _

theorem block_len {w : ℕ} (C : Blake.Cfg w) (d : Blake.St w) (p : Bytes) (h : d.h.length = 8) : (Blake.block C d p).h.length = 8 :=
  runBlocks_len _ _ _ _ _ _ h _

/-- the shape of a digest: less than a block is buffered, eight words. -/
def Shape {w : ℕ} (C : Blake.Cfg w) (short : Bool) (d : Blake.St w) : Prop :=
  d.x.length < C.blockSize ∧ d.h.length = 8 ∧ d.short = short

theorem Shape.write {w : ℕ} {C : Blake.Cfg w} {short : Bool} {d : Blake.St w} (h : Shape C short d) (p : Bytes) :
    Shape C short (Blake.write C d p) := by
  rw [Blake.write_eq C (by have := h.1; omega) d p h.1]
  exact ⟨by show (rest _ _).length < _; rw [rest_length]; exact Nat.mod_lt _ (by have := h.1; omega), block_len _ _ _ h.2.1, h.2.2⟩

theorem Shape.finish {w : ℕ} {C : Blake.Cfg w} {short : Bool} {d : Blake.St w} (h : Shape C short d) :
    Shape C short (Blake.finish C d) := by
  unfold Blake.finish
  dsimp only
  apply Shape.write
  refine (?_ : Shape C short _)
  have ht : ∀ (d : Blake.St w) (t : ℕ) , Shape C short d → Shape C short { d with t := t } := fun _ _ h => h
  have hn : ∀ (d : Blake.St w) (b : Bool) , Shape C short d → Shape C short { d with nullt := b } := fun _ _ h => h
  apply ht
  split
  · exact (ht _ _ h).write _
  · apply ht
    apply Shape.write
    split
    · apply Shape.write
      apply ht
      split
      · exact hn _ _ h
      · exact h
    · exact hn _ _ ((ht _ _ ((ht _ _ h).write _)).write _)

theorem flatMap_len {α : Type} (l : List α) (f : α → Bytes) (n : ℕ) (hf : ∀ a, (f a).length = n) : (l.flatMap f).length = n * l.length := by
  induction l with
  | nil => rfl
  | cons a l ih => rw [List.flatMap_cons, List.length_append, ih, hf, List.length_cons, Nat.mul_succ]; omega

theorem blake_len {w : ℕ} {C : Blake.Cfg w} {short : Bool} (hw : w = 32 ∨ w = 64) (ho : ∀ x, (C.outWord x).length = w / 8)
    {d : Blake.St w} (h : Shape C short d) (b : Bytes) :
    (Blake.sum C d b).length = b.length + (if short then (if w = 32 then 28 else 48) else w) := by
  have hf := h.finish
  unfold Blake.sum
  rw [List.length_append, flatMap_len _ _ (w / 8) ho, List.length_take, hf.2.1, hf.2.2]
  rcases hw with rfl | rfl <;> cases short <;> rfl

/-! ## BLAKE2s -/

theorem blake2s_computes (c : Blake2s.Config) (hc : Blake2s.verifyConfig c = true) (h0 : c.size ≠ 0) (N : ℕ) :
    Computes (blake2sObj (Blake2s.initDigest c)) (Blake2s.Spec.hash c.params) N
      (fun d m => Blake2s.Absorbed (Blake2s.initH c) (Blake2s.keyBlock c.key) c.size c.params.lastNode d (Blake2s.keyBlock c.key ++ m)) where
  init := by
    have hk : c.key.length ≤ 32 := by
      simp only [Blake2s.verifyConfig, Bool.and_eq_true, decide_eq_true_eq] at hc
      exact hc.1.1.1.2
    rw [List.append_nil]
    exact Blake2s.absorbed_init c hk
  write s m p h := ⟨_, rfl, by rw [← List.append_assoc]; exact h.write p⟩
  sum s m b h _ := ⟨s, by show Go.ret (s, Blake2s.sum s b) = _; rw [(Blake2s.sum_eq c hc h0 h b).1], h⟩
  reset s m h := by rw [List.append_nil]; exact h.reset

end Verif.Hash
