import Verif.Bls.XmdLemmas

/-!
# C60: `expand_message_xmd` of the BLS hash-to-curve code and RFC 9380

`H` is SHA-256 (`crypto/sha256`): any function with 32-byte values.
-/

namespace Verif.Props

open Verif.Bls

/-- C60, the part that holds.  Whenever RFC 9380 defines the expansion (it does not ABORT) and at least one byte is asked for, the code
returns exactly the RFC's bytes, and their number is the requested one.  Missing: the RFC also defines the empty expansion, on which the
code panics (`C60_false_empty`), and makes it an error to ask for more than 255 blocks or to pass a tag of more than 255 bytes; the code
has no error return for these (`C60_false_long_tag`). -/
theorem C60_expand_partial (H : Bytes → Bytes) (hH : ∀ m, (H m).length = 32) (msg dst : Bytes) (len : Nat) (h0 : 0 < len) (u : Bytes)
    (hu : Spec.expand H msg dst len = some u) : expandMsg H msg dst len = .ret u ∧ u.length = len :=
  expandMsg_spec hH h0 hu

/-- the hypotheses of `C60_expand_partial` are met by every tag and length in range, for instance by the tags of the library and 256 bytes. -/
theorem C60_in_range (H : Bytes → Bytes) (hH : ∀ m, (H m).length = 32) (msg dst : Bytes) (hd : dst.length ≤ 255) (len : Nat) (h0 : 0 < len)
    (hl : len ≤ 8160) : ∃ u, Spec.expand H msg dst len = some u ∧ expandMsg H msg dst len = .ret u ∧ u.length = len := by
  have hn : ¬ ((len + 31) / 32 > 255 ∨ len > 65535 ∨ dst.length > 255) := by omega
  have e : ∃ u, Spec.expand H msg dst len = some u := by
    unfold Spec.expand
    simp only []
    rw [if_neg hn]
    exact ⟨_, rfl⟩
  obtain ⟨u, hu⟩ := e
  exact ⟨u, hu, C60_expand_partial H hH msg dst len h0 u hu⟩

/-- C60 is false for the empty expansion: RFC 9380 gives the empty string, the code panics. -/
theorem C60_false_empty (H : Bytes → Bytes) (msg : Bytes) : Spec.expand H msg [] 0 = some [] ∧ expandMsg H msg [] 0 = .panic := by
  constructor
  · simp [Spec.expand]
  · simp [expandMsg, loop]

/-- C60 is false for long tags: RFC 9380 makes them an error (ABORT), the code returns bytes for every one of them. -/
theorem C60_false_long_tag (H : Bytes → Bytes) (msg dst : Bytes) (hd : 255 < dst.length) (len : Nat) (h0 : 0 < len) :
    Spec.expand H msg dst len = none ∧ ∃ u, expandMsg H msg dst len = .ret u := by
  constructor
  · unfold Spec.expand
    simp only []
    rw [if_pos (Or.inr (Or.inr hd))]
  · have : ¬ (len + 32 - 1) / 32 = 0 := by omega
    exact ⟨_, by simp only [expandMsg]; rw [if_neg this]⟩

/-- C60 is false for long outputs: RFC 9380 makes more than 255 blocks an error (ABORT), the code returns bytes. -/
theorem C60_false_long_output (H : Bytes → Bytes) (msg dst : Bytes) (len : Nat) (h0 : 8160 < len) :
    Spec.expand H msg dst len = none ∧ ∃ u, expandMsg H msg dst len = .ret u := by
  constructor
  · unfold Spec.expand
    simp only []
    rw [if_pos (Or.inl (by omega))]
  · have : ¬ (len + 32 - 1) / 32 = 0 := by omega
    exact ⟨_, by simp only [expandMsg]; rw [if_neg this]⟩

/-- a 32-byte hash that depends on its input, for the examples. -/
def toyH (m : Bytes) : Bytes := (m ++ List.replicate 32 7).take 32

example : ∃ u, Spec.expand toyH [1, 2, 3] [66, 76, 83] 100 = some u ∧ expandMsg toyH [1, 2, 3] [66, 76, 83] 100 = .ret u ∧ u.length = 100 :=
  C60_in_range toyH (fun m => by simp [toyH]) _ _ (by decide) _ (by decide) (by decide)

example : ∃ u, expandMsg toyH [1] (List.replicate 256 1) 64 = .ret u :=
  (C60_false_long_tag toyH [1] (List.replicate 256 1) (by rw [List.length_replicate]; decide) 64 (by decide)).2

end Verif.Props
