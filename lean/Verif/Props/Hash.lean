import Verif.Hash.ObjInst
import Verif.Api.Hash

/-!
# Properties of the hash functions: C35 – C44, C62

`Verif.Hash.HashObj` models a Go `hash.Hash` value, `run` the results of the `Sum` calls of a history of `Write`, `Sum` and
`Reset`, and `expected H` what a user expects of a value that computes `H` (Verif/Hash/ObjSpec.lean).  The functions themselves
are specified in SM3Spec, KeccakSpec, BlakeSpec and Blake2sSpec.
-/

namespace Verif.Props

open Verif.Hash

/-! ## C35 -/

/-- C35: the SM3 digest of every message below 2^61 bytes is that of GB/T 32905, however the message is cut into writes. -/
theorem C35_sm3 (ps : List Bytes) (h : ps.flatten.length < 2 ^ 61) :
    ∃ s, sm3Obj.writes sm3Obj.init ps = .ret s ∧ ∃ s', sm3Obj.sum s [] = .ret (s', SM3.Spec.hash ps.flatten) := by
  obtain ⟨s, e, hs⟩ := sm3_writes ps _ _ SM3.absorbed_reset
  refine ⟨s, e, (SM3.sum s []).1, ?_⟩
  have := SM3.sum_absorbed hs [] (by simpa using h)
  rw [List.append_nil, List.nil_append] at this
  show Go.ret (SM3.sum s []) = _
  rw [← this]

/-- C35: the one-shot function. -/
theorem C35_sm3_oneshot (m : Bytes) (h : m.length < 2 ^ 61) : SM3.sm3Sum m = SM3.Spec.hash m := SM3.sm3Sum_eq m h

-- a message of two chunks and more than one block; the digest of "abc" is the one of the standard's first example
example : ([[97], List.replicate 100 98] : List Bytes).flatten.length < 2 ^ 61 := by decide
set_option maxRecDepth 100000 in
example : SM3.sm3Sum [97, 98, 99] =
    [0x66, 0xc7, 0xf0, 0xf4, 0x62, 0xee, 0xed, 0xd9, 0xd1, 0xf2, 0xd4, 0x6b, 0xdc, 0x10, 0xe4, 0xe2,
     0x41, 0x67, 0xc4, 0x87, 0x5c, 0xf2, 0xf7, 0xa2, 0x29, 0x7d, 0xa0, 0x2b, 0x8f, 0x4b, 0xa8, 0xe0] := by decide +kernel

/-! ## C36 -/

/-- the six fixed-length functions of the package sha3, each with its specification. -/
def sha3Table : List (SHA3.St × (Bytes → Bytes)) :=
  [(SHA3.newKeccak256, SHA3.Spec.keccak256), (SHA3.newKeccak512, SHA3.Spec.keccak512), (SHA3.new224, SHA3.Spec.sha3_224),
   (SHA3.new256, SHA3.Spec.sha3_256), (SHA3.new384, SHA3.Spec.sha3_384), (SHA3.new512, SHA3.Spec.sha3_512)]

theorem sha3Table_computes (e : SHA3.St × (Bytes → Bytes)) (he : e ∈ sha3Table) (N : ℕ) :
    ∃ I, Computes (sha3Obj e.1) e.2 N I := by
  simp only [sha3Table, List.mem_cons, List.not_mem_nil, or_false] at he
  rcases he with rfl | rfl | rfl | rfl | rfl | rfl
  · exact ⟨_, sha3_computes rate136 0x01 32 N⟩
  · exact ⟨_, sha3_computes rate72 0x01 64 N⟩
  · exact ⟨_, sha3_computes rate144 0x06 28 N⟩
  · exact ⟨_, sha3_computes rate136 0x06 32 N⟩
  · exact ⟨_, sha3_computes rate104 0x06 48 N⟩
  · exact ⟨_, sha3_computes rate72 0x06 64 N⟩

/-- the history that writes the chunks one after the other and goes on with `ops`. -/
def chunked (ps : List Bytes) (ops : List Op) : List Op := ps.map Op.write ++ ops

theorem run_writes {S : Type} (O : HashObj S) (ps : List Bytes) (s : S) (ops : List Op) :
    O.run s (chunked ps ops) = (do let s ← O.writes s ps; O.run s ops) := by
  induction ps generalizing s with
  | nil => rfl
  | cons p ps ih =>
    show (O.write s p >>= fun s => O.run s (chunked ps ops)) = ((O.write s p >>= fun s => O.writes s ps) >>= fun s => O.run s ops)
    cases O.write s p with
    | ret t => exact ih t
    | panic => rfl

theorem chunk_of_writes {S : Type} (O : HashObj S) (h : ∀ ps : List Bytes, O.writes O.init ps = O.write O.init ps.flatten)
    (ps : List Bytes) (ops : List Op) : O.run O.init (chunked ps ops) = O.run O.init (.write ps.flatten :: ops) := by
  rw [run_writes, h]; rfl

/-- C36: SM3: after any chunking, everything that can be observed later is as after one write. -/
theorem C36_sm3 (ps : List Bytes) (ops : List Op) :
    sm3Obj.run sm3Obj.init (chunked ps ops) = sm3Obj.run sm3Obj.init (.write ps.flatten :: ops) := by
  refine chunk_of_writes _ (fun ps => ?_) ps ops
  obtain ⟨s, e, hs⟩ := sm3_writes ps _ _ SM3.absorbed_reset
  have h1 := SM3.absorbed_reset.write ps.flatten
  refine Eq.trans e ?_
  exact congrArg Go.ret (sm3_ext hs h1)

theorem written_append (a b : List Op) : written (a ++ b) = written a + written b := by
  induction a with
  | nil => simp [written]
  | cons op a ih => cases op <;> simp [written, ih, Nat.add_assoc]

theorem written_map (ps : List Bytes) : written (ps.map Op.write) = ps.flatten.length := by
  induction ps with
  | nil => rfl
  | cons p ps ih => simp [written, ih]

theorem expected_chunked (H : Bytes → Bytes) (ps : List Bytes) (m : Bytes) (ops : List Op) :
    expected H m (chunked ps ops) = expected H m (.write ps.flatten :: ops) := by
  induction ps generalizing m with
  | nil => simp [chunked, expected]
  | cons p ps ih =>
    show expected H (m ++ p) (chunked ps ops) = _
    rw [ih]
    simp [expected, List.append_assoc]

/-- C36: the SHA-3 family. -/
theorem C36_sha3 (e : SHA3.St × (Bytes → Bytes)) (he : e ∈ sha3Table) (ps : List Bytes) (ops : List Op) :
    (sha3Obj e.1).run e.1 (chunked ps ops) = (sha3Obj e.1).run e.1 (.write ps.flatten :: ops) := by
  obtain ⟨I, h⟩ := sha3Table_computes e he (written (chunked ps ops) + written (.write ps.flatten :: ops) + 1)
  have h1 := h.run (chunked ps ops) e.1 [] h.init (by simp; omega)
  have h2 := h.run (.write ps.flatten :: ops) e.1 [] h.init (by simp; omega)
  rw [h1, h2, expected_chunked]

/-- C36: BLAKE-256, BLAKE-224, BLAKE-512 and BLAKE-384, with any salt. -/
theorem C36_blake {w : ℕ} (C : Blake.Cfg w) (hB : 0 < C.blockSize) (short : Bool) (iv salt : List (BitVec w)) (ps : List Bytes)
    (ops : List Op) :
    (blakeObj C short iv salt).run (Blake.new short iv salt) (chunked ps ops) =
      (blakeObj C short iv salt).run (Blake.new short iv salt) (.write ps.flatten :: ops) := by
  refine chunk_of_writes (blakeObj C short iv salt) (fun ps => ?_) ps ops
  obtain ⟨s, e, hs⟩ := blake_writes hB ps _ _ (Blake.absorbed_new C iv salt short)
  have h1 := (Blake.absorbed_new C iv salt short).write hB ps.flatten
  refine e.trans ?_
  exact congrArg Go.ret (blake_ext hs h1)

/-- C36: BLAKE2s, for every configuration that `New` accepts. -/
theorem C36_blake2s (c : Option Blake2s.Config) (d : Blake2s.St) (hd : Blake2s.new c = some d) (ps : List Bytes) (ops : List Op) :
    (blake2sObj d).run d (chunked ps ops) = (blake2sObj d).run d (.write ps.flatten :: ops) := by
  have key : ∀ c : Blake2s.Config, Blake2s.verifyConfig c = true → c.size ≠ 0 →
      (blake2sObj (Blake2s.initDigest c)).run (Blake2s.initDigest c) (chunked ps ops) =
        (blake2sObj (Blake2s.initDigest c)).run (Blake2s.initDigest c) (.write ps.flatten :: ops) := by
    intro c hc h0
    have h := blake2s_computes c hc h0 (written (chunked ps ops) + written (.write ps.flatten :: ops) + 1)
    have h1 := h.run (chunked ps ops) (Blake2s.initDigest c) [] h.init (by simp; omega)
    have h2 := h.run (.write ps.flatten :: ops) (Blake2s.initDigest c) [] h.init (by simp; omega)
    rw [h1, h2, expected_chunked]
  cases c with
  | none =>
    obtain rfl : Blake2s.initDigest Blake2s.defaultConfig = d := by simpa [Blake2s.new] using hd
    exact key _ (by decide) (by decide)
  | some c =>
    simp only [Blake2s.new] at hd
    split at hd <;> rename_i hz <;> split at hd <;> rename_i hv
    · obtain rfl := Option.some.inj hd
      exact key _ hv (by simp)
    · exact absurd hd (by simp)
    · obtain rfl := Option.some.inj hd
      exact key _ hv hz
    · exact absurd hd (by simp)

-- a keyed configuration is accepted, an oversized one is not
example : (Blake2s.new (some ⟨20, [1, 2, 3], [4], [], none⟩)).isSome = true := by decide +kernel
example : Blake2s.new (some ⟨33, [], [], [], none⟩) = none := by decide +kernel

/-! ## C37 -/

/-- C37: SHA-3 family: in every history of writes, sums and resets, each `Sum` appends the digest of what was written since the
last reset, and disturbs nothing. -/
theorem C37_sha3 (e : SHA3.St × (Bytes → Bytes)) (he : e ∈ sha3Table) (ops : List Op) :
    (sha3Obj e.1).run e.1 ops = .ret (expected e.2 [] ops) := by
  obtain ⟨I, h⟩ := sha3Table_computes e he (written ops + 1)
  exact h.run ops e.1 [] h.init (by simp)

/-- C37: BLAKE-256. -/
theorem C37_blake256 (ops : List Op) (h : written ops < 2 ^ 61) :
    (blakeObj Blake.cfg256 false Blake.iv256 Blake.noSalt).run (Blake.new false Blake.iv256 Blake.noSalt) ops =
      .ret (expected (Blake.Spec.hash Blake.Spec.blake256 fun _ => 0) [] ops) := by
  have c := blake_computes Blake.agree256 (salt := Blake.noSalt) Blake.fn_iv256
  rw [Blake.fn_noSalt] at c
  exact c.run ops _ [] c.init (by simpa using h)

/-- C37: BLAKE-512. -/
theorem C37_blake512 (ops : List Op) (h : written ops < 2 ^ 61) :
    (blakeObj Blake.cfg512 false Blake.iv512 Blake.noSalt).run (Blake.new false Blake.iv512 Blake.noSalt) ops =
      .ret (expected (Blake.Spec.hash Blake.Spec.blake512 fun _ => 0) [] ops) := by
  have c := blake_computes Blake.agree512 (salt := Blake.noSalt) Blake.fn_iv512
  rw [Blake.fn_noSalt] at c
  exact c.run ops _ [] c.init (by simpa using h)

/-- C37: BLAKE2s. -/
theorem C37_blake2s (c : Blake2s.Config) (hc : Blake2s.verifyConfig c = true) (h0 : c.size ≠ 0) (ops : List Op) :
    (blake2sObj (Blake2s.initDigest c)).run (Blake2s.initDigest c) ops = .ret (expected (Blake2s.Spec.hash c.params) [] ops) := by
  have h := blake2s_computes c hc h0 (written ops + 1)
  exact h.run ops _ [] h.init (by simp)

example : Blake2s.verifyConfig ⟨20, [1, 2, 3], [4], [5, 6], some ⟨2, 2, 0, 7, 1, 32, true⟩⟩ = true := by decide
example : written [.write [1, 2], .sum [3], .write [4], .reset, .sum []] < 2 ^ 61 := by decide

/-- C37 fails for SM3: no function explains two `Sum(nil)` in a row, since the first one changes the state. -/
theorem C37_sm3_false : ¬ ∃ H : Bytes → Bytes, ∀ ops, sm3Obj.run sm3Obj.init ops = .ret (expected H [] ops) := by
  rintro ⟨H, h⟩
  have h2 := h [.sum [], .sum []]
  have e : ∃ a b, sm3Obj.run sm3Obj.init [.sum [], .sum []] = .ret [a, b] ∧ a ≠ b :=
    ⟨(SM3.sum SM3.reset []).2, (SM3.sum (SM3.sum SM3.reset []).1 []).2, rfl, by decide +kernel⟩
  obtain ⟨a, b, he, hne⟩ := e
  rw [he] at h2
  simp only [expected, Go.ret.injEq, List.cons.injEq, and_true] at h2
  exact hne (h2.1.trans h2.2.symm)

/-- C37 fails for SM3: `Sum(b)` does not append to `b`, it returns the digest of what was written followed by `b`. -/
theorem C37_sm3_sum (ps : List Bytes) (b : Bytes) (h : ps.flatten.length + b.length < 2 ^ 61) :
    ∃ s, sm3Obj.writes sm3Obj.init ps = .ret s ∧ ∃ s', sm3Obj.sum s b = .ret (s', SM3.Spec.hash (ps.flatten ++ b)) := by
  obtain ⟨s, e, hs⟩ := sm3_writes ps _ _ SM3.absorbed_reset
  refine ⟨s, e, (SM3.sum s b).1, ?_⟩
  have := SM3.sum_absorbed hs b (by simpa using h)
  rw [List.nil_append] at this
  show Go.ret (SM3.sum s b) = _
  rw [← this]

/-- the history that hashes several messages one after the other, each in chunks, with `Sum(nil)` and `Reset` after each. -/
def oneByOne (msgs : List (List Bytes)) : List Op := msgs.flatMap fun ps => ps.map Op.write ++ [.sum [], .reset]

/-- C37 for SM3, the part that holds: with a nil argument and a `Reset` after each `Sum`, the digests are right.  Missing: `Sum`
in the middle of a stream and with an argument (false, see `C37_sm3_false` and `C37_sm3_sum`). -/
theorem C37_sm3_partial (msgs : List (List Bytes)) (h : ∀ ps ∈ msgs, ps.flatten.length < 2 ^ 61) :
    sm3Obj.run sm3Obj.init (oneByOne msgs) = .ret (msgs.map fun ps => SM3.Spec.hash ps.flatten) := by
  induction msgs with
  | nil => rfl
  | cons ps msgs ih =>
    have e : oneByOne (ps :: msgs) = chunked ps (.sum [] :: .reset :: oneByOne msgs) := by simp [oneByOne, chunked]
    rw [e, run_writes]
    obtain ⟨s, e1, s', e2⟩ := C35_sm3 ps (h ps (by simp))
    rw [e1, Go.ret_bind]
    show (sm3Obj.sum s [] >>= fun r => sm3Obj.run sm3Obj.init (oneByOne msgs) >>= fun out => .ret (r.2 :: out)) = _
    rw [e2, Go.ret_bind, ih fun ps hps => h ps (by simp [hps])]
    rfl

/-! ## C38 -/

/-- C38: SM3 digests have 32 bytes, after any history of the value. -/
theorem C38_sm3 (s s' : SM3.St) (b out : Bytes) (h : sm3Obj.sum s b = .ret (s', out)) : out.length = 32 := by
  have : SM3.sum s b = (s', out) := Go.ret.inj h
  rw [← show (SM3.sum s b).2 = out by rw [this]]
  rfl

/-- C38: the SHA-3 family. -/
theorem C38_sha3 (s0 : SHA3.St) (n : ℕ)
    (h : (s0, n) ∈ [(SHA3.newKeccak256, 32), (SHA3.newKeccak512, 64), (SHA3.new224, 28), (SHA3.new256, 32), (SHA3.new384, 48), (SHA3.new512, 64)])
    (m : Bytes) : ∃ d, (sha3Obj s0).digest m = .ret d ∧ d.length = n := by
  have key : ∀ {r : ℕ} (_ : SHA3.RateOk r) (ds : UInt8) (ol : ℕ), ∃ d, (sha3Obj (SHA3.new r ol ds)).digest m = .ret d ∧ d.length = ol := by
    intro r hr ds ol
    exact ⟨_, (sha3_computes hr ds ol (m.length + 1)).digest m (by omega), by simp [SHA3.Spec.sponge]⟩
  simp only [List.mem_cons, List.not_mem_nil, or_false, Prod.mk.injEq] at h
  rcases h with ⟨rfl, rfl⟩ | ⟨rfl, rfl⟩ | ⟨rfl, rfl⟩ | ⟨rfl, rfl⟩ | ⟨rfl, rfl⟩ | ⟨rfl, rfl⟩
  · exact key rate136 0x01 32
  · exact key rate72 0x01 64
  · exact key rate144 0x06 28
  · exact key rate136 0x06 32
  · exact key rate104 0x06 48
  · exact key rate72 0x06 64

/-- C38: BLAKE-256 and BLAKE-224: 32 and 28 bytes. -/
theorem C38_blake256 (short : Bool) (salt : List (BitVec 32)) (m : Bytes) :
    ∃ d, (blakeObj Blake.cfg256 short (if short then Blake.iv224 else Blake.iv256) salt).digest m = .ret d ∧
      d.length = if short then 28 else 32 := by
  refine ⟨_, rfl, ?_⟩
  have hs : Shape Blake.cfg256 short (Blake.new short (if short then Blake.iv224 else Blake.iv256) salt) := by
    cases short <;> exact ⟨Nat.zero_lt_succ _, rfl, rfl⟩
  have := blake_len (Or.inl rfl) (fun _ => rfl) (hs.write m) []
  refine this.trans ?_
  cases short <;> rfl

/-- C38: BLAKE-512 and BLAKE-384: 64 and 48 bytes. -/
theorem C38_blake512 (short : Bool) (salt : List (BitVec 64)) (m : Bytes) :
    ∃ d, (blakeObj Blake.cfg512 short (if short then Blake.iv384 else Blake.iv512) salt).digest m = .ret d ∧
      d.length = if short then 48 else 64 := by
  refine ⟨_, rfl, ?_⟩
  have hs : Shape Blake.cfg512 short (Blake.new short (if short then Blake.iv384 else Blake.iv512) salt) := by
    cases short <;> exact ⟨Nat.zero_lt_succ _, rfl, rfl⟩
  have := blake_len (Or.inr rfl) (fun _ => rfl) (hs.write m) []
  refine this.trans ?_
  cases short <;> rfl

/-- C38: BLAKE2s: the configured size. -/
theorem C38_blake2s (c : Blake2s.Config) (hc : Blake2s.verifyConfig c = true) (h0 : c.size ≠ 0) (m : Bytes) :
    ∃ d, (blake2sObj (Blake2s.initDigest c)).digest m = .ret d ∧ d.length = c.size.toNat := by
  refine ⟨_, rfl, ?_⟩
  have h := blake2s_computes c hc h0 (m.length + 1)
  obtain ⟨s, e, hI⟩ := h.write _ _ m h.init
  obtain rfl : Blake2s.write (Blake2s.initDigest c) m = s := Go.ret.inj e
  have := (Blake2s.sum_eq c hc h0 hI []).2
  simpa using show List.length (Blake2s.sum (Blake2s.write (blake2sObj (Blake2s.initDigest c)).init m) []) = _ from this

/-! ## C39, C40, C41 -/

/-- C39: the six fixed-length functions, however the message is cut, equal the sponge of FIPS 202. -/
theorem C39_sha3 (e : SHA3.St × (Bytes → Bytes)) (he : e ∈ sha3Table) (ps : List Bytes) :
    (sha3Obj e.1).run e.1 (chunked ps [.sum []]) = .ret [e.2 ps.flatten] := by
  rw [C36_sha3 e he, C37_sha3 e he]
  simp [expected]

/-- C39: SHAKE128 and SHAKE256 of every message and output length. -/
theorem C39_shake (m : Bytes) (n : ℕ) :
    SHA3.shakeSum SHA3.newShake128 m n = .ret (SHA3.Spec.shake128 m n) ∧
    SHA3.shakeSum SHA3.newShake256 m n = .ret (SHA3.Spec.shake256 m n) :=
  ⟨SHA3.shakeSum_eq rate168 0x1f 0 m n, SHA3.shakeSum_eq rate136 0x1f 0 m n⟩

/-- C39: the assembly-free fast path for unaligned input gives the same state as the generic one for every rate in use. -/
theorem C39_xorIn (a : SHA3.Lanes) (b : Bytes) (h : b.length ∈ [72, 104, 136, 144, 168]) :
    SHA3.xorInUnaligned a b = SHA3.xorIn a b := SHA3.xorInUnaligned_eq a b h

-- SHA3-256 of the empty message (FIPS 202 test vector)
set_option maxRecDepth 100000 in
example : (sha3Obj SHA3.new256).digest [] = .ret
    [0xa7, 0xff, 0xc6, 0xf8, 0xbf, 0x1e, 0xd7, 0x66, 0x51, 0xc1, 0x47, 0x56, 0xa0, 0x61, 0xd6, 0x62,
     0xf5, 0x80, 0xff, 0x4d, 0xe4, 0x3b, 0x49, 0xfa, 0x82, 0xd8, 0x0a, 0x4b, 0x80, 0xf8, 0x43, 0x4a] := by decide +kernel

/-- reads of the sizes `ns`, one after the other. -/
def reads (s : SHA3.St) : List ℕ → List Bytes
  | [] => []
  | n :: ns => (SHA3.read s n).2 :: reads (SHA3.read s n).1 ns

theorem reads_squeezed {r : ℕ} {S : SHA3.Spec.State} (ns : List ℕ) (s : SHA3.St) (pos : ℕ) (h : SHA3.Squeezed r S s pos) :
    (reads s ns).flatten = (List.range' pos ns.sum).map (SHA3.Spec.streamByte r S) ∧ (reads s ns).map List.length = ns := by
  induction ns generalizing s pos with
  | nil => simp [reads]
  | cons n ns ih =>
    obtain ⟨h1, h2⟩ := h.read n
    obtain ⟨i1, i2⟩ := ih _ _ h1
    refine ⟨?_, ?_⟩
    · rw [reads, List.flatten_cons, h2, i1, List.sum_cons, ← List.map_append, List.range'_append_1]
    · rw [reads, List.map_cons, i2, h2]; simp

theorem reads_absorbed {r : ℕ} {ds : UInt8} {ol : ℕ} {s : SHA3.St} {m : Bytes} (h : SHA3.Absorbed r ds ol s m) (ns : List ℕ) :
    (reads s ns).flatten = SHA3.Spec.sponge r ds m ns.sum ∧ (reads s ns).map List.length = ns := by
  cases ns with
  | nil => simp [reads, SHA3.Spec.sponge]
  | cons n ns =>
    obtain ⟨h1, h2⟩ := h.read n
    obtain ⟨i1, i2⟩ := reads_squeezed ns _ _ h1
    refine ⟨?_, ?_⟩
    · rw [reads, List.flatten_cons, h2, i1, List.sum_cons]
      unfold SHA3.Spec.sponge SHA3.spongeState
      rw [← List.map_append]
      congr 1
      rw [List.range_eq_range', List.range_eq_range', ← List.range'_append_1, Nat.zero_add]
    · rw [reads, List.map_cons, i2, h2]; simp [SHA3.Spec.sponge]

theorem sha3_writes {r : ℕ} (hr : SHA3.RateOk r) (ds : UInt8) (ol : ℕ) (ps : List Bytes) :
    ∃ s, (sha3Obj (SHA3.new r ol ds)).writes (SHA3.new r ol ds) ps = .ret s ∧ SHA3.Absorbed r ds ol s ps.flatten := by
  obtain ⟨s, e, h⟩ := (sha3_computes hr ds ol 0).writes ps _ [] (sha3_computes hr ds ol 0).init
  exact ⟨s, e, by simpa using h⟩

/-- C40: SHAKE128: the chunks of the output, whatever their sizes, are one stream. -/
theorem C40_shake128 (ps : List Bytes) (ns : List ℕ) :
    ∃ s, (sha3Obj SHA3.newShake128).writes SHA3.newShake128 ps = .ret s ∧
      (reads s ns).flatten = SHA3.Spec.shake128 ps.flatten ns.sum ∧ (reads s ns).map List.length = ns := by
  obtain ⟨s, e, h⟩ := sha3_writes rate168 0x1f 0 ps
  exact ⟨s, e, reads_absorbed h ns⟩

/-- C40: SHAKE256. -/
theorem C40_shake256 (ps : List Bytes) (ns : List ℕ) :
    ∃ s, (sha3Obj SHA3.newShake256).writes SHA3.newShake256 ps = .ret s ∧
      (reads s ns).flatten = SHA3.Spec.shake256 ps.flatten ns.sum ∧ (reads s ns).map List.length = ns := by
  obtain ⟨s, e, h⟩ := sha3_writes rate136 0x1f 0 ps
  exact ⟨s, e, reads_absorbed h ns⟩

/-- C40: writing after reading panics, as documented. -/
theorem C40_write_after_read (ps : List Bytes) (n : ℕ) (p : Bytes) :
    ∃ s, (sha3Obj SHA3.newShake256).writes SHA3.newShake256 ps = .ret s ∧ SHA3.write (SHA3.read s n).1 p = .panic := by
  obtain ⟨s, e, h⟩ := sha3_writes rate136 0x1f 0 ps
  refine ⟨s, e, ?_⟩
  unfold SHA3.write
  rw [if_pos (h.read n).1.sq]

/-- C41, the part that holds: a clone of a state that has not been read from is the same state; so is a clone of a SHAKE128 state
after any reads.  Missing: SHAKE256 after a read (false, see `C41_shake256_false`). -/
theorem C41_clone_partial (ps : List Bytes) :
    (∀ e ∈ sha3Table, ∃ s, (sha3Obj e.1).writes e.1 ps = .ret s ∧ SHA3.clone s = .ret s) ∧
    (∃ s, (sha3Obj SHA3.newShake256).writes SHA3.newShake256 ps = .ret s ∧ SHA3.clone s = .ret s) ∧
    (∃ s, (sha3Obj SHA3.newShake128).writes SHA3.newShake128 ps = .ret s ∧ SHA3.clone s = .ret s ∧
      ∀ n, SHA3.clone (SHA3.read s n).1 = .ret (SHA3.read s n).1) := by
  have key : ∀ {r : ℕ} (_ : SHA3.RateOk r) (ds : UInt8) (ol : ℕ),
      ∃ s, (sha3Obj (SHA3.new r ol ds)).writes (SHA3.new r ol ds) ps = .ret s ∧ SHA3.clone s = .ret s := by
    intro r hr ds ol
    obtain ⟨s, e, h⟩ := sha3_writes hr ds ol ps
    exact ⟨s, e, h.clone⟩
  refine ⟨?_, key rate136 0x1f 0, ?_⟩
  · intro e he
    simp only [sha3Table, List.mem_cons, List.not_mem_nil, or_false] at he
    rcases he with rfl | rfl | rfl | rfl | rfl | rfl
    · exact key rate136 0x01 32
    · exact key rate72 0x01 64
    · exact key rate144 0x06 28
    · exact key rate136 0x06 32
    · exact key rate104 0x06 48
    · exact key rate72 0x06 64
  · obtain ⟨s, e, h⟩ := sha3_writes rate168 0x1f 0 ps
    refine ⟨s, e, h.clone, fun n => ?_⟩
    have hs := (h.read n).1
    have hl := hs.len
    have ho := hs.off
    have hr := hs.rate
    generalize (SHA3.read s n).1 = t at *
    unfold SHA3.clone SHA3.maxRate
    rw [if_pos hs.sq, hr, if_neg (by omega)]
    have e1 : 168 + t.off - 168 = t.off := by omega
    rw [e1, show 168 - t.off = t.len by omega]
    rw [← hr]

/-- C41 fails for SHAKE256 after reading `n` bytes: the clone panics when `n mod 136 < 32`, and otherwise it is 32 bytes behind:
what it returns next are the bytes of the stream from `n - 32` on, not from `n`. -/
theorem C41_shake256_false (ps : List Bytes) (n : ℕ) :
    ∃ s, (sha3Obj SHA3.newShake256).writes SHA3.newShake256 ps = .ret s ∧
      (n % 136 < 32 → SHA3.clone (SHA3.read s n).1 = .panic) ∧
      (32 ≤ n % 136 → ∃ c, SHA3.clone (SHA3.read s n).1 = .ret c ∧
        ∀ k, (SHA3.read c k).2 = (SHA3.Spec.shake256 ps.flatten (n - 32 + k)).drop (n - 32) ∧
          (SHA3.read (SHA3.read s n).1 k).2 = (SHA3.Spec.shake256 ps.flatten (n + k)).drop n) := by
  obtain ⟨s, e, h⟩ := sha3_writes rate136 0x1f 0 ps
  have hs := (h.read n).1
  have ho := hs.off
  have hr := hs.rate
  refine ⟨s, e, fun hn => ?_, fun hn => ?_⟩
  · unfold SHA3.clone SHA3.maxRate
    rw [if_pos hs.sq, if_pos (by omega)]
  · have hc : SHA3.clone (SHA3.read s n).1 = .ret { (SHA3.read s n).1 with off := n % 136 - 32, len := 136 - (n % 136 - 32) } := by
      unfold SHA3.clone SHA3.maxRate
      rw [if_pos hs.sq, if_neg (by omega)]
      rw [show (SHA3.read s n).1.rate + (SHA3.read s n).1.off - 168 = n % 136 - 32 by omega,
        show (SHA3.read s n).1.rate - (n % 136 - 32) = 136 - (n % 136 - 32) by rw [hr]]
    refine ⟨_, hc, fun k => ?_⟩
    have hcl : SHA3.Squeezed 136 (SHA3.spongeState 136 0x1f ps.flatten)
        { (SHA3.read s n).1 with off := n % 136 - 32, len := 136 - (n % 136 - 32) } (n - 32) := by
      have e1 : (n - 32) % 136 = n % 136 - 32 := by omega
      have e2 : (n - 32) / 136 = n / 136 := by omega
      exact ⟨hs.hr, hs.rate, hs.sq, hs.st, e1.symm, by rw [e1], by rw [e2]; exact hs.a, hs.buf⟩
    have key : ∀ a b : ℕ, ((List.range (a + b)).map (SHA3.Spec.streamByte 136 (SHA3.spongeState 136 0x1f ps.flatten))).drop a =
        (List.range' a b).map (SHA3.Spec.streamByte 136 (SHA3.spongeState 136 0x1f ps.flatten)) := by
      intro a b
      rw [← List.map_drop, List.range_eq_range', ← List.range'_append_1, List.drop_left' (by simp), Nat.zero_add]
    exact ⟨(hcl.read k).2.trans (key (n - 32) k).symm, (hs.read k).2.trans (key n k).symm⟩

-- one read byte is enough for the panic; and after 32 bytes the clone repeats the first byte of the stream instead of the 33rd
example : 1 % 136 < 32 := by decide
set_option maxRecDepth 100000 in
example : ((SHA3.Spec.shake256 [] 1 ≠ []) ∧
    (SHA3.read (SHA3.read SHA3.newShake256 32).1 1).2 ≠ (SHA3.read SHA3.newShake256 1).2) :=
  ⟨by simp [SHA3.Spec.shake256, SHA3.Spec.sponge], by decide +kernel⟩

end Verif.Props
