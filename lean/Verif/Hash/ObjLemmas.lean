import Verif.Hash.ObjSpec

/-! # Histories and HMAC over any hash object with an invariant -/

namespace Verif.Hash

/-- an object that computes `H` for inputs of at most `N` bytes, as far as writing, summing and resetting goes; `I s m` says
that the state `s` stands for the written bytes `m`. -/
structure Computes {S : Type} (O : HashObj S) (H : Bytes → Bytes) (N : Nat) (I : S → Bytes → Prop) : Prop where
  init : I O.init []
  write : ∀ s m p, I s m → ∃ s', O.write s p = .ret s' ∧ I s' (m ++ p)
  sum : ∀ s m b, I s m → m.length < N → ∃ s', O.sum s b = .ret (s', b ++ H m) ∧ I s' m
  reset : ∀ s m, I s m → I (O.reset s) []

theorem Computes.run {S : Type} {O : HashObj S} {H : Bytes → Bytes} {N : Nat} {I : S → Bytes → Prop} (h : Computes O H N I)
    (ops : List Op) (s : S) (m : Bytes) (hI : I s m) (hN : m.length + written ops < N) : O.run s ops = .ret (expected H m ops) := by
  induction ops generalizing s m with
  | nil => rfl
  | cons op ops ih =>
    cases op with
    | write p =>
      obtain ⟨s', e, hI'⟩ := h.write s m p hI
      rw [HashObj.run, e, Go.ret_bind, expected]
      exact ih s' _ hI' (by rw [written] at hN; rw [List.length_append]; omega)
    | sum b =>
      have hN : m.length + written ops < N := hN
      obtain ⟨s', e, hI'⟩ := h.sum s m b hI (by omega)
      rw [HashObj.run, e, Go.ret_bind, ih s' _ hI' hN, expected]
      rfl
    | reset =>
      have hN : m.length + written ops < N := hN
      rw [HashObj.run, expected]
      exact ih _ _ (h.reset s m hI) (by simp; omega)

theorem Computes.writes {S : Type} {O : HashObj S} {H : Bytes → Bytes} {N : Nat} {I : S → Bytes → Prop} (h : Computes O H N I)
    (ps : List Bytes) (s : S) (m : Bytes) (hI : I s m) : ∃ s', O.writes s ps = .ret s' ∧ I s' (m ++ ps.flatten) := by
  induction ps generalizing s m with
  | nil => exact ⟨s, rfl, by simpa using hI⟩
  | cons p ps ih =>
    obtain ⟨s', e, hI'⟩ := h.write s m p hI
    obtain ⟨t, e2, hI2⟩ := ih s' _ hI'
    exact ⟨t, by rw [HashObj.writes, e, Go.ret_bind, e2], by rw [List.flatten_cons, ← List.append_assoc]; exact hI2⟩

theorem Computes.digest {S : Type} {O : HashObj S} {H : Bytes → Bytes} {N : Nat} {I : S → Bytes → Prop} (h : Computes O H N I)
    (m : Bytes) (hN : m.length < N) : O.digest m = .ret (H m) := by
  obtain ⟨s, e, hI⟩ := h.write _ _ m h.init
  obtain ⟨s', e2, -⟩ := h.sum s _ [] hI (by simpa using hN)
  rw [HashObj.digest, e, Go.ret_bind, e2]
  simp

theorem hmacKey_eq (n : Nat) (key : Bytes) (c : UInt8) (h : key.length ≤ n) :
    hmacKey n key c = (key ++ List.replicate (n - key.length) 0).map (· ^^^ c) := by
  rw [hmacKey, List.take_of_length_le h]

/-- crypto/hmac over an object that appends nothing to a nil argument computes RFC 2104; `Sum` may spoil the state, since
`Reset` follows. -/
theorem hmac_eq {S : Type} {O : HashObj S} {H : Bytes → Bytes} {N : Nat} {I : S → Bytes → Prop} (hinit : I O.init [])
    (hwrite : ∀ s m p, I s m → ∃ s', O.write s p = .ret s' ∧ I s' (m ++ p))
    (hsum : ∀ s m, I s m → m.length < N → ∃ s', O.sum s [] = .ret (s', H m))
    (hreset : ∀ s, I (O.reset s) []) (hlen : ∀ m, (H m).length ≤ O.blockSize)
    (key m : Bytes) (hk : key.length < N) (hm : O.blockSize + m.length < N) (hN : O.blockSize + O.blockSize < N) :
    hmac O key m = .ret (hmacSpec H O.blockSize key m) := by
  -- after the key has been shortened
  have main : ∀ (outer : S) (k : Bytes), k.length ≤ O.blockSize →
      (do
        let inner ← O.write O.init (hmacKey O.blockSize k 0x36)
        let inner ← O.write inner m
        let (_, h) ← O.sum inner []
        let outer := O.reset outer
        let outer ← O.write outer (hmacKey O.blockSize k 0x5c)
        let outer ← O.write outer h
        let (_, out) ← O.sum outer []
        Go.ret out) =
      Go.ret (H ((k ++ List.replicate (O.blockSize - k.length) 0).map (· ^^^ 0x5c) ++
        H ((k ++ List.replicate (O.blockSize - k.length) 0).map (· ^^^ 0x36) ++ m))) := by
    intro outer k hkl
    rw [hmacKey_eq _ _ _ hkl, hmacKey_eq _ _ _ hkl]
    generalize hA : (k ++ List.replicate (O.blockSize - k.length) 0).map (· ^^^ (0x36 : UInt8)) = A
    generalize hB : (k ++ List.replicate (O.blockSize - k.length) 0).map (· ^^^ (0x5c : UInt8)) = B
    have hAl : A.length = O.blockSize := by rw [← hA]; simp; omega
    have hBl : B.length = O.blockSize := by rw [← hB]; simp; omega
    obtain ⟨s1, e1, i1⟩ := hwrite _ _ A hinit
    obtain ⟨s2, e2, i2⟩ := hwrite _ _ m i1
    obtain ⟨s3, e3⟩ := hsum _ _ i2 (by simp; omega)
    obtain ⟨s4, e4, i4⟩ := hwrite _ _ B (hreset outer)
    obtain ⟨s5, e5, i5⟩ := hwrite _ _ (H (A ++ m)) i4
    obtain ⟨s6, e6⟩ := hsum _ _ i5 (by have := hlen (A ++ m); simp; omega)
    rw [e1, Go.ret_bind, e2, Go.ret_bind, e3, Go.ret_bind]
    dsimp only
    rw [e4, Go.ret_bind]
    simp only [List.nil_append] at *
    rw [e5, Go.ret_bind, e6]
    rfl
  unfold hmac hmacSpec
  dsimp only
  by_cases hl : key.length > O.blockSize
  · obtain ⟨s1, e1, i1⟩ := hwrite _ _ key hinit
    obtain ⟨s2, e2⟩ := hsum _ _ i1 (by simpa using hk)
    rw [if_pos hl, if_pos hl, e1, Go.ret_bind, e2, Go.ret_bind, List.nil_append]
    exact main s2 (H key) (hlen key)
  · rw [if_neg hl, if_neg hl, Go.ret_bind]
    exact main O.init key (by omega)

end Verif.Hash
