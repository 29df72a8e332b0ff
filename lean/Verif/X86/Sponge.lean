import Verif.X86.KeccakRun
import Verif.Hash.SHA3Lemmas

/-!
# The sponge of package sha3 as it is built for amd64

On amd64 `keccakF1600` is the assembly function (keccakf_amd64.go), and `xorIn` and `copyOut` are the functions of
xor_unaligned.go.  The functions of sha3.go and shake.go are transcribed once more, over these three.
-/

set_option maxRecDepth 10000

namespace Verif.X86.Keccak

open Verif.SHA3

/-- the call of the assembly function on the array `a`; `env` holds what is in the registers and on the stack. -/
def permAsm (env : KSt) (a : Lanes) : Lanes := (run keccakF1600 { env with st := a }).st

/-- xor_unaligned.go:48-51 `copyOutUnaligned` into a buffer of `n` bytes: the first bytes of the array in memory, on a little-endian
machine, `maxRate` at most. -/
def copyOutUnaligned (a : Lanes) (n : Nat) : Bytes := ((a.toList.flatMap putLE64).take maxRate).take n

/-- sha3.go:77-93 `permute`. -/
def permuteA (env : KSt) (s : St) : St :=
  if s.squeezing then
    let a := permAsm env s.a
    { s with a := a, off := 0, len := s.rate, storage := put s.storage 0 (copyOutUnaligned a s.rate) }
  else
    { s with a := permAsm env (xorInUnaligned s.a s.buf), off := 0, len := 0 }

/-- sha3.go:97-122 `padAndPermute`. -/
def padAndPermuteA (env : KSt) (s : St) (dsbyte : UInt8) : St :=
  let storage := put s.storage (s.off + s.len) [dsbyte]
  let zerosStart := s.len + 1
  let storage := put storage zerosStart (List.replicate (s.rate - zerosStart) 0)
  let storage := put storage (s.rate - 1) [storage.getD (s.rate - 1) 0 ^^^ 0x80]
  let s := { s with storage := storage, off := 0, len := s.rate }
  let s := permuteA env s
  let s := { s with squeezing := true, off := 0, len := s.rate }
  { s with storage := put s.storage 0 (copyOutUnaligned s.a s.rate) }

/-- sha3.go:135-156: the loop of `Write`. -/
def writeLoopA (env : KSt) : Nat → St → Bytes → St
  | 0, s, _ => s
  | n + 1, s, p =>
    if p.length = 0 then s else
    if s.len = 0 ∧ p.length ≥ s.rate then
      writeLoopA env n { s with a := permAsm env (xorInUnaligned s.a (p.take s.rate)) } (p.drop s.rate)
    else
      let todo := if s.rate - s.len > p.length then p.length else s.rate - s.len
      let s := { s with storage := put s.storage (s.off + s.len) (p.take todo), len := s.len + todo }
      let s := if s.len = s.rate then permuteA env s else s
      writeLoopA env n s (p.drop todo)

/-- sha3.go:126-159 `Write`. -/
def writeA (env : KSt) (s : St) (p : Bytes) : Go St := if s.squeezing then .panic else .ret (writeLoopA env p.length s p)

/-- sha3.go:171-180: the loop of `Read`. -/
def readLoopA (env : KSt) : Nat → St → Nat → Bytes → St × Bytes
  | 0, s, _, out => (s, out)
  | k + 1, s, n, out =>
    if n = 0 then (s, out) else
    let c := if s.len < n then s.len else n
    let out := out ++ s.buf.take c
    let s := { s with off := s.off + c, len := s.len - c }
    let s := if s.len = 0 then permuteA env s else s
    readLoopA env k s (n - c) out

/-- sha3.go:162-183 `Read`. -/
def readA (env : KSt) (s : St) (n : Nat) : St × Bytes :=
  let s := if s.squeezing then s else padAndPermuteA env s s.ds
  readLoopA env n s n []

/-- sha3.go:187-195 `Sum`. -/
def sumA (env : KSt) (s : St) (inp : Bytes) : Go Bytes := do
  let dup ← clone s
  .ret (inp ++ (readA env dup dup.outputLen).2)

/-- the calls a user makes on a `hash.Hash` or `ShakeHash`; `clone` goes on with the copy. -/
inductive Call where
  | write (p : Bytes)
  | sum (inp : Bytes)
  | read (n : Nat)
  | reset
  | clone

/-- one call on the portable build: the new state and the bytes returned. -/
def callGo (s : St) : Call → Go (St × Bytes)
  | .write p => do let s ← write s p; .ret (s, [])
  | .sum inp => do let o ← sum s inp; .ret (s, o)
  | .read n => .ret (read s n)
  | .reset => .ret (reset s, [])
  | .clone => do let s ← clone s; .ret (s, [])

/-- one call on the amd64 build. -/
def callAsm (env : KSt) (s : St) : Call → Go (St × Bytes)
  | .write p => do let s ← writeA env s p; .ret (s, [])
  | .sum inp => do let o ← sumA env s inp; .ret (s, o)
  | .read n => .ret (readA env s n)
  | .reset => .ret (reset s, [])
  | .clone => do let s ← clone s; .ret (s, [])

/-- the bytes that a sequence of calls returns on the portable build. -/
def callsGo (s : St) : List Call → Go (List Bytes)
  | [] => .ret []
  | c :: cs => do
    let r ← callGo s c
    let rest ← callsGo r.1 cs
    .ret (r.2 :: rest)

/-- the same on the amd64 build; every call finds other registers and another stack. -/
def callsAsm (s : St) : List (KSt × Call) → Go (List Bytes)
  | [] => .ret []
  | c :: cs => do
    let r ← callAsm c.1 s c.2
    let rest ← callsAsm r.1 cs
    .ret (r.2 :: rest)

/-! ## the two builds agree -/

/-- the rates in use. -/
def rates : List Nat := [72, 104, 136, 144, 168]

theorem rates_ok {r : Nat} (h : r ∈ rates) : RateOk r ∧ r ≤ 168 ∧ 0 < r := by
  simp only [rates, List.mem_cons, List.not_mem_nil, or_false] at h
  rcases h with rfl | rfl | rfl | rfl | rfl <;> exact ⟨⟨by decide, by decide, by decide⟩, by decide, by decide⟩

theorem permAsm_eq (env : KSt) (a : Lanes) : permAsm env a = SHA3.keccakF1600 a := keccak_same _

theorem copyOutUnaligned_eq (a : Lanes) {r : Nat} (h : r ∈ rates) : copyOutUnaligned a r = copyOut a r := by
  simp only [rates, List.mem_cons, List.not_mem_nil, or_false] at h
  obtain ⟨t0, t1, t2, t3, t4, t5, t6, t7, t8, t9, t10, t11, t12, t13, t14, t15, t16, t17, t18, t19, t20, t21, t22, t23, t24⟩ := a
  rcases h with rfl | rfl | rfl | rfl | rfl <;> rfl

/-- what every reachable state satisfies. -/
structure Inv (s : St) : Prop where
  rate : s.rate ∈ rates
  storage : s.storage.length = 168
  absorbing : s.squeezing = false → s.off = 0 ∧ s.len < s.rate

theorem permuteA_eq (env : KSt) (s : St) (hr : s.rate ∈ rates) (hb : s.squeezing = false → s.buf.length = s.rate) :
    permuteA env s = permute s := by
  unfold permuteA permute
  by_cases h : s.squeezing = true
  · simp only [h, if_true, permAsm_eq, copyOutUnaligned_eq _ hr]
  · rw [if_neg h, if_neg h, permAsm_eq, xorInUnaligned_eq]
    rw [hb (by simpa using h)]; exact hr

theorem padAndPermuteA_eq (env : KSt) (s : St) (ds : UInt8) (h : Inv s) (hs : s.squeezing = false) :
    padAndPermuteA env s ds = padAndPermute s ds := by
  obtain ⟨ho, hl⟩ := h.absorbing hs
  obtain ⟨_, h2, h3⟩ := rates_ok h.rate
  have hst := h.storage
  unfold padAndPermuteA padAndPermute
  simp only
  rw [permuteA_eq]
  · rw [copyOutUnaligned_eq]
    unfold permute
    split <;> exact h.rate
  · exact h.rate
  · intro _
    simp only [St.buf, List.drop_zero, List.length_take]
    rw [put_length, put_length, put_length, hst]
    · omega
    all_goals simp only [List.length_cons, List.length_nil, List.length_replicate]
    · rw [hst]; omega
    · rw [put_length, hst]
      · omega
      · simp only [List.length_cons, List.length_nil]; omega
    · rw [put_length, put_length, hst]
      · omega
      · simp only [List.length_cons, List.length_nil]; omega
      · rw [put_length, hst]
        · simp only [List.length_replicate]; omega
        · simp only [List.length_cons, List.length_nil]; omega

theorem writeLoopA_eq (env : KSt) (n : Nat) (s : St) (p : Bytes) (h : Inv s) (hs : s.squeezing = false) :
    writeLoopA env n s p = writeLoop n s p ∧ Inv (writeLoop n s p) ∧ (writeLoop n s p).squeezing = false := by
  induction n generalizing s p with
  | zero => exact ⟨rfl, h, hs⟩
  | succ n ih =>
    obtain ⟨ho, hl⟩ := h.absorbing hs
    obtain ⟨_, h2, h3⟩ := rates_ok h.rate
    have hst := h.storage
    unfold writeLoopA writeLoop
    by_cases h0 : p.length = 0
    · rw [if_pos h0, if_pos h0]; exact ⟨rfl, h, hs⟩
    rw [if_neg h0, if_neg h0]
    by_cases h1 : s.len = 0 ∧ p.length ≥ s.rate
    · rw [if_pos h1, if_pos h1, permAsm_eq, xorInUnaligned_eq]
      · exact ih _ _ ⟨h.rate, h.storage, h.absorbing⟩ hs
      · rw [List.length_take, Nat.min_eq_left h1.2]; exact h.rate
    rw [if_neg h1, if_neg h1]
    simp only
    generalize ht : (if s.rate - s.len > p.length then p.length else s.rate - s.len) = todo
    have ht1 : todo ≤ p.length ∧ todo ≤ s.rate - s.len := by
      rw [← ht]; split <;> omega
    have hp : (put s.storage (s.off + s.len) (p.take todo)).length = 168 := by
      rw [put_length, hst]
      rw [List.length_take]; omega
    by_cases hf : s.len + todo = s.rate
    · rw [if_pos hf, if_pos hf, permuteA_eq]
      · refine ih _ _ ?_ ?_
        · unfold permute
          simp only [hs, Bool.false_eq_true, if_false]
          exact ⟨h.rate, hp, fun _ => ⟨rfl, h3⟩⟩
        · unfold permute
          simp only [hs, Bool.false_eq_true, if_false]
      · exact h.rate
      · intro _
        simp only [St.buf, List.length_take, List.length_drop, hp]
        omega
    · rw [if_neg hf, if_neg hf]
      exact ih _ _ ⟨h.rate, hp, fun _ => ⟨ho, by simp only; omega⟩⟩ hs

theorem permute_sq (s : St) (h : Inv s) (hs : s.squeezing = true) : Inv (permute s) ∧ (permute s).squeezing = true := by
  obtain ⟨h1, h2, h3⟩ := rates_ok h.rate
  unfold permute
  rw [if_pos hs]
  refine ⟨⟨h.rate, ?_, fun hc => ?_⟩, hs⟩
  · simp only
    rw [put_length, h.storage]
    rw [copyOut_length _ h1, h.storage]; omega
  · simp only [hs] at hc; cases hc

theorem readLoopA_eq (env : KSt) (k : Nat) (s : St) (n : Nat) (out : Bytes) (h : Inv s) (hs : s.squeezing = true) :
    readLoopA env k s n out = readLoop k s n out ∧ Inv (readLoop k s n out).1 := by
  induction k generalizing s n out with
  | zero => exact ⟨rfl, h⟩
  | succ k ih =>
    unfold readLoopA readLoop
    by_cases h0 : n = 0
    · rw [if_pos h0, if_pos h0]; exact ⟨rfl, h⟩
    rw [if_neg h0, if_neg h0]
    simp only
    generalize (if s.len < n then s.len else n) = c
    have hi : Inv { s with off := s.off + c, len := s.len - c } :=
      ⟨h.rate, h.storage, fun hc => by simp only [hs] at hc; cases hc⟩
    by_cases hz : s.len - c = 0
    · rw [if_pos hz, if_pos hz, permuteA_eq]
      · obtain ⟨i1, i2⟩ := permute_sq _ hi hs
        exact ih _ _ _ i1 i2
      · exact h.rate
      · intro hc; simp only [hs] at hc; cases hc
    · rw [if_neg hz, if_neg hz]
      exact ih _ _ _ hi hs

theorem pad_inv (s : St) (ds : UInt8) (h : Inv s) (hs : s.squeezing = false) :
    Inv (padAndPermute s ds) ∧ (padAndPermute s ds).squeezing = true := by
  obtain ⟨ho, hl⟩ := h.absorbing hs
  obtain ⟨h1, h2, h3⟩ := rates_ok h.rate
  have hst := h.storage
  unfold padAndPermute permute
  simp only [hs, Bool.false_eq_true, if_false]
  refine ⟨⟨h.rate, ?_, fun hc => by cases hc⟩, trivial⟩
  simp only
  have e1 : (put s.storage (s.off + s.len) [ds]).length = 168 := by
    rw [put_length, hst]; simp only [List.length_cons, List.length_nil]; omega
  have e2 : (put (put s.storage (s.off + s.len) [ds]) (s.len + 1) (List.replicate (s.rate - (s.len + 1)) 0)).length = 168 := by
    rw [put_length, e1]; simp only [List.length_replicate]; omega
  rw [put_length, put_length, e2]
  · rw [e2]; simp only [List.length_cons, List.length_nil]; omega
  · rw [copyOut_length _ h1, put_length, e2]
    · omega
    · rw [e2]; simp only [List.length_cons, List.length_nil]; omega

theorem readA_eq (env : KSt) (s : St) (n : Nat) (h : Inv s) : readA env s n = read s n ∧ Inv (read s n).1 := by
  unfold readA SHA3.read
  by_cases hs : s.squeezing = true
  · simp only [hs, if_true]
    exact readLoopA_eq env n s n [] h hs
  · have hs' : s.squeezing = false := by simpa using hs
    simp only [hs', Bool.false_eq_true, if_false]
    rw [padAndPermuteA_eq env s _ h hs']
    obtain ⟨i1, i2⟩ := pad_inv s s.ds h hs'
    exact readLoopA_eq env n _ n [] i1 i2

theorem clone_inv {s t : St} (h : Inv s) (e : clone s = .ret t) : Inv t := by
  unfold clone at e
  by_cases hs : s.squeezing = true
  · rw [if_pos hs] at e
    split at e
    · cases e
    · injection e with e
      rw [← e]
      exact ⟨h.rate, h.storage, fun hc => by simp only [hs] at hc; cases hc⟩
  · rw [if_neg hs] at e
    injection e with e
    rw [← e]
    exact ⟨h.rate, h.storage, fun hc => ⟨rfl, (h.absorbing hc).2⟩⟩

theorem sumA_eq (env : KSt) (s : St) (inp : Bytes) (h : Inv s) : sumA env s inp = sum s inp := by
  unfold sumA sum
  cases e : clone s with
  | ret t =>
    show Go.ret (inp ++ (readA env t t.outputLen).2) = Go.ret (inp ++ (read t t.outputLen).2)
    rw [(readA_eq env t _ (clone_inv h e)).1]
  | panic => rfl

theorem reset_inv {s : St} (h : Inv s) : Inv (reset s) :=
  ⟨h.rate, h.storage, fun _ => ⟨rfl, (rates_ok h.rate).2.2⟩⟩

theorem call_eq (env : KSt) (s : St) (c : Call) (h : Inv s) :
    callAsm env s c = callGo s c ∧ ∀ r, callGo s c = .ret r → Inv r.1 := by
  cases c with
  | write p =>
    unfold callAsm callGo writeA write
    by_cases hs : s.squeezing = true
    · simp only [hs, if_true]; exact ⟨trivial, fun r hr => by cases hr⟩
    · have hs' : s.squeezing = false := by simpa using hs
      obtain ⟨e1, e2, _⟩ := writeLoopA_eq env p.length s p h hs'
      simp only [hs', Bool.false_eq_true, if_false]
      rw [e1]
      exact ⟨rfl, fun r hr => by injection hr with hr; rw [← hr]; exact e2⟩
  | sum inp =>
    unfold callAsm callGo
    simp only
    rw [sumA_eq env s inp h]
    refine ⟨rfl, fun r hr => ?_⟩
    cases e : SHA3.sum s inp with
    | ret o => rw [e] at hr; injection hr with hr; rw [← hr]; exact h
    | panic => rw [e] at hr; cases hr
  | read n =>
    obtain ⟨e1, e2⟩ := readA_eq env s n h
    unfold callAsm callGo
    simp only
    rw [e1]
    exact ⟨rfl, fun r hr => by injection hr with hr; rw [← hr]; exact e2⟩
  | reset => exact ⟨rfl, fun r hr => by injection hr with hr; rw [← hr]; exact reset_inv h⟩
  | clone =>
    refine ⟨rfl, fun r hr => ?_⟩
    unfold callGo at hr
    simp only at hr
    cases e : SHA3.clone s with
    | ret t => rw [e] at hr; injection hr with hr; rw [← hr]; exact clone_inv h e
    | panic => rw [e] at hr; cases hr

theorem calls_eq (s : St) (cs : List (KSt × Call)) (h : Inv s) : callsAsm s cs = callsGo s (cs.map Prod.snd) := by
  induction cs generalizing s with
  | nil => rfl
  | cons c cs ih =>
    obtain ⟨e1, e2⟩ := call_eq c.1 s c.2 h
    rw [callsAsm, List.map_cons, callsGo, e1]
    cases e : callGo s c.2 with
    | panic => rfl
    | ret r =>
      show (do let rest ← callsAsm r.1 cs; Go.ret (r.2 :: rest)) = (do let rest ← callsGo r.1 (cs.map Prod.snd); Go.ret (r.2 :: rest))
      rw [ih _ (e2 r e)]

theorem new_inv {r : Nat} (h : r ∈ rates) (ol : Nat) (ds : UInt8) : Inv (new r ol ds) :=
  ⟨h, List.length_replicate, fun _ => ⟨rfl, (rates_ok h).2.2⟩⟩

end Verif.X86.Keccak
