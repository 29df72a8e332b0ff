import Verif.X86.Sponge
import Verif.Props.Hash

/-!
# C110: the assembly permutation of SHA-3

`Spec.keccakF` is Keccak-f[1600] of FIPS 202 on a function from coordinates to lanes (Hash/KeccakSpec.lean); lane `(x, y)` is word
`5 y + x` of the array that the function is given.
-/

namespace Verif.Props

open Verif.SHA3 Verif.X86.Keccak

/-- C110: from every machine state (registers, contents of the array, contents of the frame) the function leaves in the array
Keccak-f[1600] of what was there. -/
theorem C110_spec (m : KSt) (x y : Fin 5) :
    (run X86.Keccak.keccakF1600 m).st.get ⟨5 * y.val + x.val, by omega⟩ =
      Spec.keccakF (fun x y => m.st.get ⟨5 * y.val + x.val, by omega⟩) x y :=
  congrFun (congrFun (keccak_run m) x) y

/-- C110: it leaves what the Go function of the other platforms (keccakf.go) leaves, so what C36–C40 say of the hashes holds of both builds. -/
theorem C110_same (m : KSt) : (run X86.Keccak.keccakF1600 m).st = SHA3.keccakF1600 m.st := keccak_same m

/-- C110: the result does not depend on registers or frame on entry. -/
theorem C110_only (m m' : KSt) (h : m.st = m'.st) :
    (run X86.Keccak.keccakF1600 m).st = (run X86.Keccak.keccakF1600 m').st := by
  rw [C110_same, C110_same, h]

-- a state with something in every register: the first word of Keccak-f[1600] of zero (Keccak reference, KeccakF-1600-IntermediateValues)
set_option maxRecDepth 100000 in
example : (run X86.Keccak.keccakF1600 ⟨1, 2, 3, 4, 5, 6, 7, 8, 9, 10, 11, 12, 13, 14,
    ⟨0, 0, 0, 0, 0, 0, 0, 0, 0, 0, 0, 0, 0, 0, 0, 0, 0, 0, 0, 0, 0, 0, 0, 0, 0⟩,
    ⟨1, 2, 3, 4, 5, 6, 7, 8, 9, 10, 11, 12, 13, 14, 15, 16, 17, 18, 19, 20, 21, 22, 23, 24, 25⟩⟩).st.a0 = 0xf1258f7940e1dde7 := by
  decide +kernel

/-- C110: every sequence of `Write`, `Sum`, `Read`, `Reset` and `Clone` on an object of one of the eight constructors returns the same
bytes, or panics at the same call, on amd64 as on other platforms, whatever registers and stack hold at each call. -/
theorem C110_hashes (s : SHA3.St) (hs : s ∈ [SHA3.newKeccak256, SHA3.newKeccak512, SHA3.new224, SHA3.new256, SHA3.new384, SHA3.new512,
    SHA3.newShake128, SHA3.newShake256]) (cs : List (KSt × Call)) : callsAsm s cs = callsGo s (cs.map Prod.snd) := by
  apply calls_eq
  simp only [List.mem_cons, List.not_mem_nil, or_false] at hs
  rcases hs with rfl | rfl | rfl | rfl | rfl | rfl | rfl | rfl <;> exact new_inv (by decide) _ _

/-- C110: hence on amd64 a message written to one of the six fixed-length objects has the hash of FIPS 202 (or of Keccak). -/
theorem C110_digest (e : SHA3.St × (Bytes → Bytes)) (he : e ∈ sha3Table) (env env' : KSt) (m : Bytes) :
    callsAsm e.1 [(env, .write m), (env', .sum [])] = .ret [[], e.2 m] := by
  have key : ∀ {r : ℕ} (_ : SHA3.RateOk r) (ds : UInt8) (ol : ℕ),
      callsGo (SHA3.new r ol ds) [.write m, .sum []] = .ret [[], Spec.sponge r ds m ol] := by
    intro r hr ds ol
    obtain ⟨s, h1, h2⟩ := (SHA3.absorbed_new hr ds ol).write m
    simp only [callsGo, callGo, h1, Go.ret_bind, h2.sum, List.nil_append]
  rw [C110_hashes]
  · simp only [sha3Table, List.mem_cons, List.not_mem_nil, or_false] at he
    rcases he with rfl | rfl | rfl | rfl | rfl | rfl <;> exact key (rates_ok (by decide)).1 _ _
  · simp only [sha3Table, List.mem_cons, List.not_mem_nil, or_false] at he
    rcases he with rfl | rfl | rfl | rfl | rfl | rfl <;> simp

/-- C110: and a message written to a SHAKE object is squeezed to the output of FIPS 202. -/
theorem C110_shake (env env' : KSt) (m : Bytes) (n : ℕ) :
    callsAsm SHA3.newShake128 [(env, .write m), (env', .read n)] = .ret [[], Spec.shake128 m n] ∧
    callsAsm SHA3.newShake256 [(env, .write m), (env', .read n)] = .ret [[], Spec.shake256 m n] := by
  have key : ∀ {r : ℕ} (_ : SHA3.RateOk r) (ds : UInt8) (ol : ℕ),
      callsGo (SHA3.new r ol ds) [.write m, .read n] = .ret [[], Spec.sponge r ds m n] := by
    intro r hr ds ol
    obtain ⟨s, h1, h2⟩ := (SHA3.absorbed_new hr ds ol).write m
    simp only [callsGo, callGo, h1, Go.ret_bind, (h2.read n).2, List.nil_append]
  exact ⟨by rw [C110_hashes _ (by simp)]; exact key (rates_ok (by decide)).1 0x1f 0, by rw [C110_hashes _ (by simp)]; exact key (rates_ok (by decide)).1 0x1f 0⟩

-- a history with a panic: writing after reading
example (env : KSt) : callsAsm SHA3.newShake128 [(env, .read 1), (env, .write [1])] = .panic := by
  rw [C110_hashes _ (by simp)]; rfl

end Verif.Props
