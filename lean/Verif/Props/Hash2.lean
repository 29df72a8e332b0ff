import Verif.Props.Hash

/-!
# Properties of the hash functions: C42, C43, C44, C62
-/

namespace Verif.Props

open Verif.Hash

/-! ## C42 -/

/-- a salt of four big-endian words. -/
def saltWords (w : ℕ) (s : Bytes) (i : Fin 4) : BitVec w := BitVec.ofNat w (beNat ((s.drop (w / 8 * i.val)).take (w / 8)))

theorem fn_salt256 (s : Bytes) : Blake.fn4 (Blake.salt256 s) = saltWords 32 s := by
  funext i
  fin_cases i <;> rfl

theorem fn_salt512 (s : Bytes) : Blake.fn4 (Blake.salt512 s) = saltWords 64 s := by
  funext i
  fin_cases i <;> rfl

theorem blake_chunks {w : ℕ} {C : Blake.Cfg w} {V : Blake.Spec.Variant w} {short : Bool} (A : Blake.Agree C V short)
    {iv salt : List (BitVec w)} (hiv : Blake.fn8 iv = V.iv) (ps : List Bytes) (b : Bytes) (h : ps.flatten.length < 2 ^ 61) :
    (blakeObj C short iv salt).run (Blake.new short iv salt) (chunked ps [.sum b]) =
      .ret [b ++ Blake.Spec.hash V (Blake.fn4 salt) ps.flatten] := by
  have c := blake_computes A (salt := salt) hiv
  have := c.run (chunked ps [.sum b]) _ [] c.init (by simpa [chunked, written_append, written_map, written] using h)
  refine this.trans ?_
  rw [expected_chunked]
  rfl

/-- C42: BLAKE-256 and BLAKE-224 without salt: every message below 2^61 bytes, cut in any way. -/
theorem C42_blake256 (ps : List Bytes) (b : Bytes) (h : ps.flatten.length < 2 ^ 61) :
    (blakeObj Blake.cfg256 false Blake.iv256 Blake.noSalt).run (Blake.new false Blake.iv256 Blake.noSalt) (chunked ps [.sum b]) =
      .ret [b ++ Blake.Spec.hash Blake.Spec.blake256 (fun _ => 0) ps.flatten] ∧
    (blakeObj Blake.cfg256 true Blake.iv224 Blake.noSalt).run (Blake.new true Blake.iv224 Blake.noSalt) (chunked ps [.sum b]) =
      .ret [b ++ Blake.Spec.hash Blake.Spec.blake224 (fun _ => 0) ps.flatten] := by
  constructor
  · rw [blake_chunks Blake.agree256 Blake.fn_iv256 ps b h, Blake.fn_noSalt]
  · rw [blake_chunks Blake.agree224 Blake.fn_iv224 ps b h, Blake.fn_noSalt]

/-- C42: BLAKE-512 and BLAKE-384 without salt. -/
theorem C42_blake512 (ps : List Bytes) (b : Bytes) (h : ps.flatten.length < 2 ^ 61) :
    (blakeObj Blake.cfg512 false Blake.iv512 Blake.noSalt).run (Blake.new false Blake.iv512 Blake.noSalt) (chunked ps [.sum b]) =
      .ret [b ++ Blake.Spec.hash Blake.Spec.blake512 (fun _ => 0) ps.flatten] ∧
    (blakeObj Blake.cfg512 true Blake.iv384 Blake.noSalt).run (Blake.new true Blake.iv384 Blake.noSalt) (chunked ps [.sum b]) =
      .ret [b ++ Blake.Spec.hash Blake.Spec.blake384 (fun _ => 0) ps.flatten] := by
  constructor
  · rw [blake_chunks Blake.agree512 Blake.fn_iv512 ps b h, Blake.fn_noSalt]
  · rw [blake_chunks Blake.agree384 Blake.fn_iv384 ps b h, Blake.fn_noSalt]

/-- C42: with a salt of 16 bytes; another length panics. -/
theorem C42_salt256 (short : Bool) (salt : Bytes) (ps : List Bytes) (b : Bytes) (h : ps.flatten.length < 2 ^ 61) :
    if salt.length = 16 then
      ∃ d, Blake.newSalt256 short salt = .ret d ∧
        (blakeObj Blake.cfg256 short (if short then Blake.iv224 else Blake.iv256) (Blake.salt256 salt)).run d (chunked ps [.sum b]) =
          .ret [b ++ Blake.Spec.hash (if short then Blake.Spec.blake224 else Blake.Spec.blake256) (saltWords 32 salt) ps.flatten]
    else Blake.newSalt256 short salt = .panic := by
  split <;> rename_i hs
  · refine ⟨_, by rw [Blake.newSalt256, if_neg (by simpa using hs)], ?_⟩
    cases short
    · exact (blake_chunks Blake.agree256 Blake.fn_iv256 ps b h).trans (by rw [fn_salt256]; rfl)
    · exact (blake_chunks Blake.agree224 Blake.fn_iv224 ps b h).trans (by rw [fn_salt256]; rfl)
  · rw [Blake.newSalt256, if_pos (by simpa using hs)]

/-- C42: with a salt of 32 bytes; another length panics. -/
theorem C42_salt512 (short : Bool) (salt : Bytes) (ps : List Bytes) (b : Bytes) (h : ps.flatten.length < 2 ^ 61) :
    if salt.length = 32 then
      ∃ d, Blake.newSalt512 short salt = .ret d ∧
        (blakeObj Blake.cfg512 short (if short then Blake.iv384 else Blake.iv512) (Blake.salt512 salt)).run d (chunked ps [.sum b]) =
          .ret [b ++ Blake.Spec.hash (if short then Blake.Spec.blake384 else Blake.Spec.blake512) (saltWords 64 salt) ps.flatten]
    else Blake.newSalt512 short salt = .panic := by
  split <;> rename_i hs
  · refine ⟨_, by rw [Blake.newSalt512, if_neg (by simpa using hs)], ?_⟩
    cases short
    · exact (blake_chunks Blake.agree512 Blake.fn_iv512 ps b h).trans (by rw [fn_salt512]; rfl)
    · exact (blake_chunks Blake.agree384 Blake.fn_iv384 ps b h).trans (by rw [fn_salt512]; rfl)
  · rw [Blake.newSalt512, if_pos (by simpa using hs)]

-- the test vector of the BLAKE-256 submission: one zero byte
set_option maxRecDepth 100000 in
example : Blake.blake256 [0] =
    [0x0C, 0xE8, 0xD4, 0xEF, 0x4D, 0xD7, 0xCD, 0x8D, 0x62, 0xDF, 0xDE, 0xD9, 0xD4, 0xED, 0xB0, 0xA7,
     0x74, 0xAE, 0x6A, 0x41, 0x92, 0x9A, 0x74, 0xDA, 0x23, 0x10, 0x9E, 0x8F, 0x11, 0x13, 0x9C, 0x87] := by decide +kernel
example : (List.replicate 16 7 : Bytes).length = 16 ∧ ([[1], [2, 3]] : List Bytes).flatten.length < 2 ^ 61 := by decide

/-! ## C43 -/

theorem blake2s_chunks (c : Blake2s.Config) (hc : Blake2s.verifyConfig c = true) (h0 : c.size ≠ 0) (ps : List Bytes) (b : Bytes) :
    (blake2sObj (Blake2s.initDigest c)).run (Blake2s.initDigest c) (chunked ps [.sum b]) =
      .ret [b ++ Blake2s.Spec.hash c.params ps.flatten] := by
  rw [C37_blake2s c hc h0, expected_chunked]
  rfl

/-- C43: the MAC with an output of 1 to 32 bytes and a key of at most 32 bytes equals RFC 7693, for every message and chunking. -/
theorem C43_blake2s_mac (n : UInt8) (h1 : 1 ≤ n.toNat) (h2 : n.toNat ≤ 32) (key : Bytes) (hk : key.length ≤ 32) (ps : List Bytes)
    (b : Bytes) :
    ∃ d, Blake2s.newMAC n key = .ret d ∧
      (blake2sObj d).run d (chunked ps [.sum b]) = .ret [b ++ Blake2s.Spec.hash { outLen := n.toNat, key := key } ps.flatten] := by
  have h0 : n ≠ 0 := by rintro rfl; simp at h1
  have hv : Blake2s.verifyConfig ⟨n, key, [], [], none⟩ = true := by
    simp only [Blake2s.verifyConfig]
    simp [UInt8.le_iff_toNat_le]
    omega
  refine ⟨Blake2s.initDigest ⟨n, key, [], [], none⟩, ?_, blake2s_chunks _ hv h0 ps b⟩
  simp only [Blake2s.newMAC, Blake2s.new]
  rw [if_neg h0, if_pos hv]

/-- C43: the other arguments: size 0 means 32 bytes, and more than 32 bytes of output or key panic. -/
theorem C43_blake2s_mac_other (n : UInt8) (key : Bytes) :
    (key.length ≤ 32 → Blake2s.newMAC 0 key = Blake2s.newMAC 32 key) ∧
    (32 < n.toNat ∨ 32 < key.length → Blake2s.newMAC n key = .panic) := by
  have e : ∀ k : Bytes, Blake2s.new (some ⟨0, k, [], [], none⟩) = Blake2s.new (some ⟨32, k, [], [], none⟩) := by
    intro k
    rfl
  refine ⟨fun _ => by simp only [Blake2s.newMAC, e], fun h => ?_⟩
  have hn : Blake2s.new (some ⟨n, key, [], [], none⟩) = none := by
    simp only [Blake2s.new]
    split
    · rename_i h0
      rw [if_neg]
      have h0 : n = 0 := h0
      subst h0
      simp [Blake2s.verifyConfig] at h ⊢
      omega
    · rw [if_neg]
      simp [Blake2s.verifyConfig, UInt8.le_iff_toNat_le] at h ⊢
      omega
  simp only [Blake2s.newMAC, hn]

/-- C43: the 32-byte one-shot function. -/
theorem C43_blake2s_sum256 (m : Bytes) : Blake2s.sum256 m = Blake2s.Spec.hash { outLen := 32, key := [] } m := by
  have := blake2s_chunks Blake2s.defaultConfig (by decide) (by decide) [m] []
  simp only [List.nil_append, chunked, List.flatten_cons, List.flatten_nil, List.append_nil, List.map_cons, List.map_nil] at this
  have h2 : Blake2s.sum (Blake2s.write Blake2s.new256 m) [] = Blake2s.Spec.hash Blake2s.defaultConfig.params m := by
    exact List.head_eq_of_cons_eq (Go.ret.inj this)
  have h3 : Blake2s.sum (Blake2s.write Blake2s.new256 m) [] = Blake2s.sum256 m := by
    have h := blake2s_computes Blake2s.defaultConfig (by decide) (by decide) (m.length + 1)
    obtain ⟨s, e, hI⟩ := h.write _ _ m h.init
    obtain rfl : Blake2s.write Blake2s.new256 m = s := Go.ret.inj e
    have hl : (Blake2s.write Blake2s.new256 m).size = 32 := hI.size
    have hc := (Blake2s.checkSum_eq hI (by decide) (by decide)).2
    rw [Blake2s.sum, hl, List.nil_append, List.take_of_length_le]
    · rfl
    · exact hc.le
  rw [← h3, h2]
  rfl

/-- C43: salt, personalisation and tree parameters, for every configuration the constructor accepts. -/
theorem C43_blake2s_config (c : Blake2s.Config) (hc : Blake2s.verifyConfig c = true) (h0 : c.size ≠ 0) (ps : List Bytes) (b : Bytes) :
    ∃ d, Blake2s.new (some c) = some d ∧
      (blake2sObj d).run d (chunked ps [.sum b]) = .ret [b ++ Blake2s.Spec.hash c.params ps.flatten] := by
  refine ⟨Blake2s.initDigest c, ?_, blake2s_chunks c hc h0 ps b⟩
  simp only [Blake2s.new]
  rw [if_neg h0, if_pos hc]

-- BLAKE2s-256("abc") of RFC 7693, appendix B
set_option maxRecDepth 100000 in
example : Blake2s.sum256 [97, 98, 99] =
    [0x50, 0x8C, 0x5E, 0x8C, 0x32, 0x7C, 0x14, 0xE2, 0xE1, 0xA7, 0x2B, 0xA3, 0x4E, 0xEB, 0x45, 0x2F,
     0x37, 0x45, 0x8B, 0x20, 0x9E, 0xD6, 0x3A, 0x29, 0x4D, 0x99, 0x9B, 0x4C, 0x86, 0x67, 0x59, 0x82] := by decide +kernel

/-! ## C44 -/

/-- what `Hash` is for: the table of the algorithm identifiers.  `none` is a nil result. -/
def hashTable (E : Api.Ext) (data : Bytes) (digestLen : ℕ) : List (ℕ × Option Bytes) :=
  [(0xA0000000, some (E.sha1 data)),
   (0xA0000001, some (SHA3.Spec.sha3_256 data)),
   (0xA0000002, some (E.sha256 data)),
   (0xA0000003, some (E.sha512 data)),
   (0xA0000004, some (E.md4 data)),
   (0xA0000005, some (E.md5 data)),
   (0xA0000006, some (E.ripemd160 data)),
   (0xA0000007, if 1 ≤ digestLen ∧ digestLen ≤ 64 then some (E.blake2b digestLen data) else none),
   (0xA0000009, some (SM3.Spec.hash data)),
   (0xA000000A, some (E.sha256 (E.sha256 data))),
   (0xA000000B, some (E.ripemd160 (E.sha256 data))),
   (0xA000000C, some (Blake.Spec.hash Blake.Spec.blake256 (fun _ => 0) data)),
   (0xA000000D, some (Blake.Spec.hash Blake.Spec.blake512 (fun _ => 0) data)),
   (0xA000000E, some (SHA3.Spec.keccak256 data)),
   (0xA000000F, some (E.ripemd160 (SHA3.Spec.keccak256 data))),
   (0xA0000010, some (E.ripemd160 (SHA3.Spec.sha3_256 data))),
   (0xA0000011, some (SHA3.Spec.keccak512 data)),
   (0xA0000012, some (SHA3.Spec.sha3_512 data))]

theorem sha3_digest (e : SHA3.St × (Bytes → Bytes)) (he : e ∈ sha3Table) (m : Bytes) : (sha3Obj e.1).digest m = .ret (e.2 m) := by
  obtain ⟨I, h⟩ := sha3Table_computes e he (m.length + 1)
  exact h.digest m (by omega)

/-- C44: every identifier of the table except BLAKE2s. -/
theorem C44_hash (E : Api.Ext) (data : Bytes) (digestLen t : ℕ) (r : Option Bytes) (hd : data.length < 2 ^ 61)
    (h : (t, r) ∈ hashTable E data digestLen) : Api.hash E data digestLen t = .ret r := by
  have k256 := sha3_digest (SHA3.newKeccak256, SHA3.Spec.keccak256) (by simp [sha3Table]) data
  have k512 := sha3_digest (SHA3.newKeccak512, SHA3.Spec.keccak512) (by simp [sha3Table]) data
  have s256 := sha3_digest (SHA3.new256, SHA3.Spec.sha3_256) (by simp [sha3Table]) data
  have s512 := sha3_digest (SHA3.new512, SHA3.Spec.sha3_512) (by simp [sha3Table]) data
  have sm3 : sm3Obj.digest data = .ret (SM3.Spec.hash data) := congrArg Go.ret (SM3.sm3Sum_eq data hd)
  have c1 := blake_computes Blake.agree256 (salt := Blake.noSalt) Blake.fn_iv256
  have c2 := blake_computes Blake.agree512 (salt := Blake.noSalt) Blake.fn_iv512
  rw [Blake.fn_noSalt] at c1 c2
  have b256 := c1.digest data hd
  have b512 := c2.digest data hd
  simp only [hashTable, List.mem_cons, List.not_mem_nil, or_false, Prod.mk.injEq] at h
  rcases h with ⟨rfl, rfl⟩ | ⟨rfl, rfl⟩ | ⟨rfl, rfl⟩ | ⟨rfl, rfl⟩ | ⟨rfl, rfl⟩ | ⟨rfl, rfl⟩ | ⟨rfl, rfl⟩ | ⟨rfl, rfl⟩ | ⟨rfl, rfl⟩ |
    ⟨rfl, rfl⟩ | ⟨rfl, rfl⟩ | ⟨rfl, rfl⟩ | ⟨rfl, rfl⟩ | ⟨rfl, rfl⟩ | ⟨rfl, rfl⟩ | ⟨rfl, rfl⟩ | ⟨rfl, rfl⟩ | ⟨rfl, rfl⟩
  · rfl
  · exact congrArg Api.some' s256
  · rfl
  · rfl
  · rfl
  · rfl
  · rfl
  · rfl
  · exact congrArg Api.some' sm3
  · rfl
  · rfl
  · exact congrArg Api.some' b256
  · exact congrArg Api.some' b512
  · exact congrArg Api.some' k256
  · exact congrArg (fun r : Go Bytes => r >>= fun tmp => Go.ret (some (E.ripemd160 tmp))) k256
  · exact congrArg (fun r : Go Bytes => r >>= fun tmp => Go.ret (some (E.ripemd160 tmp))) s256
  · exact congrArg Api.some' k512
  · exact congrArg Api.some' s512

/-- C44: BLAKE2s: the digest length is taken modulo 256; 0 means 32. -/
theorem C44_blake2s (E : Api.Ext) (data : Bytes) (digestLen : ℕ) (h : digestLen % 256 ≤ 32) :
    Api.hash E data digestLen 0xA0000008 =
      .ret (some (Blake2s.Spec.hash { outLen := if digestLen % 256 = 0 then 32 else digestLen % 256, key := [] } data)) := by
  have key : ∀ n : UInt8, 1 ≤ n.toNat → n.toNat ≤ 32 →
      (do let d ← Blake2s.newMAC n []; Api.some' ((blake2sObj d).digest data)) =
        .ret (some (Blake2s.Spec.hash { outLen := n.toNat, key := [] } data)) := by
    intro n h1 h2
    obtain ⟨d, e1, e2⟩ := C43_blake2s_mac n h1 h2 [] (by simp) [data] []
    rw [e1, Go.ret_bind]
    have h3 : Blake2s.sum (Blake2s.write d data) [] = Blake2s.Spec.hash { outLen := n.toNat, key := [] } data := by
      simpa using List.head_eq_of_cons_eq (Go.ret.inj e2)
    show Go.ret (some (Blake2s.sum (Blake2s.write d data) [])) = _
    rw [h3]
  have hm : (UInt8.ofNat digestLen).toNat = digestLen % 256 := by simp
  show (do let d ← Blake2s.newMAC (UInt8.ofNat digestLen) []; Api.some' ((blake2sObj d).digest data)) = _
  split <;> rename_i h0
  · have : UInt8.ofNat digestLen = 0 := UInt8.toNat.inj (by rw [hm, h0]; rfl)
    rw [this, (C43_blake2s_mac_other 0 []).1 (by simp), key 32 (by decide) (by decide)]
    rfl
  · rw [key _ (by omega) (by omega), hm]

/-- C44, the BLAKE2s lengths that are not served: 33 to 255 (modulo 256) crash the caller, where BLAKE2b returns nil. -/
theorem C44_blake2s_crash (E : Api.Ext) (data : Bytes) (digestLen : ℕ) (h : 32 < digestLen % 256) :
    Api.hash E data digestLen 0xA0000008 = .panic := by
  have hm : (UInt8.ofNat digestLen).toNat = digestLen % 256 := by simp
  show (do let d ← Blake2s.newMAC (UInt8.ofNat digestLen) []; Api.some' ((blake2sObj d).digest data)) = _
  rw [(C43_blake2s_mac_other (UInt8.ofNat digestLen) []).2 (Or.inl (by omega))]
  rfl

/-- C44: every other identifier gives nil. -/
theorem C44_unknown (E : Api.Ext) (data : Bytes) (digestLen t : ℕ) (h : t < 0xA0000000 ∨ 0xA0000012 < t) :
    Api.hash E data digestLen t = .ret none := by
  unfold Api.hash
  split <;> first | rfl | omega

-- the table has the nineteen identifiers of profile.go but BLAKE2s
example (E : Api.Ext) (data : Bytes) (n : ℕ) :
    (hashTable E data n).map Prod.fst = (List.range 8).map (0xA0000000 + ·) ++ (List.range' 9 10).map (0xA0000000 + ·) := rfl
example : 40 % 256 > 32 ∧ 288 % 256 = 32 := by decide

/-! ## C62 -/

/-- C62: `Hmac` with SM3 is RFC 2104 over the SM3 of GB/T 32905, with blocks of 64 bytes. -/
theorem C62_hmac_sm3 (E : Api.Ext) (key data : Bytes) (hk : key.length < 2 ^ 61) (hd : data.length < 2 ^ 61 - 64) :
    Api.hmac E key data 0x50505052 = .ret (some (hmacSpec SM3.Spec.hash 64 key data)) := by
  have : Hash.hmac sm3Obj key data = .ret (hmacSpec SM3.Spec.hash 64 key data) := by
    refine hmac_eq (N := 2 ^ 61) (I := SM3.Absorbed) SM3.absorbed_reset (fun s m p h => ⟨_, rfl, h.write p⟩) (fun s m h hm => ?_)
      (fun s => SM3.absorbed_reset) (fun m => ?_) key data hk (by show 64 + _ < _; omega) (by decide)
    · refine ⟨(SM3.sum s []).1, ?_⟩
      have := SM3.sum_absorbed h [] (by simpa using hm)
      rw [List.append_nil] at this
      show Go.ret (SM3.sum s []) = _
      rw [← this]
    · show _ ≤ 64
      have h4 : ∀ x : BitVec 32, (padLeft 4 (natBytes x.toNat)).length = 4 := fun x =>
        padLeft_length (natBytes_length_le (by have := x.isLt; omega))
      simp only [SM3.Spec.hash, List.ofFn_succ, List.ofFn_zero, List.flatten_cons, List.flatten_nil, List.length_append, h4,
        List.length_nil]
      decide
  exact congrArg Api.some' this

/-- C62: `Hmac` with SHA-256 and SHA-512 (functions of the standard library) is RFC 2104 with blocks of 64 and 128 bytes. -/
theorem C62_hmac_sha2 (E : Api.Ext) (h256 : ∀ m, (E.sha256 m).length = 32) (h512 : ∀ m, (E.sha512 m).length = 64) (key data : Bytes) :
    Api.hmac E key data 0x50505050 = .ret (some (hmacSpec E.sha256 64 key data)) ∧
    Api.hmac E key data 0x50505051 = .ret (some (hmacSpec E.sha512 128 key data)) := by
  have gen : ∀ (H : Bytes → Bytes) (n : ℕ), (∀ m, (H m).length ≤ n) →
      Hash.hmac (Api.extObj H n) key data = .ret (hmacSpec H n key data) := by
    intro H n hl
    exact hmac_eq (O := Api.extObj H n) (N := key.length + data.length + n + n + 1) (I := fun s m => s = m) rfl
      (fun s m p h => ⟨_, rfl, by subst h; rfl⟩) (fun s m h _ => ⟨s, by subst h; rfl⟩) (fun _ => rfl) hl key data
      (by omega) (by show n + _ < _; omega) (by show n + n < _; omega)
  exact ⟨congrArg Api.some' (gen _ 64 fun m => by rw [h256]; omega), congrArg Api.some' (gen _ 128 fun m => by rw [h512]; omega)⟩

/-- C62: every other identifier gives nil. -/
theorem C62_hmac_unknown (E : Api.Ext) (key data : Bytes) (t : ℕ) (h : t < 0x50505050 ∨ 0x50505052 < t) :
    Api.hmac E key data t = .ret none := by
  unfold Api.hmac
  split <;> first | rfl | omega

-- imported functions with digests of 32 and 64 bytes exist, and a key longer than a block is in the range
example : ∃ E : Api.Ext, (∀ m, (E.sha256 m).length = 32) ∧ ∀ m, (E.sha512 m).length = 64 :=
  ⟨⟨id, id, id, id, fun _ => List.replicate 32 0, fun _ => List.replicate 64 0, fun _ => id⟩, by simp, by simp⟩
example : (List.replicate 65 1 : Bytes).length < 2 ^ 61 ∧ ([1] : Bytes).length < 2 ^ 61 - 64 := by decide

end Verif.Props
