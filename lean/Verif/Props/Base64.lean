import Verif.Proofs.Base64
/-!
# C01, C02, C03: base64
-/
namespace Verif.Props
open Verif Verif.Model

/-- **C01.** A standard decoder gets back exactly what was encoded, for every byte string. -/
theorem C01_standard_decoder_inverts_encode (s : Bytes) : Spec.Base64.decode (Base64.encode s) = some s :=
  Proofs.Base64.spec_decode_encodeFrom s 0

/-- **C01** (second sentence). Different inputs have different encodings. -/
theorem C01_encode_injective (s t : Bytes) (h : Base64.encode s = Base64.encode t) : s = t := by
  have h1 := C01_standard_decoder_inverts_encode s
  rw [h, C01_standard_decoder_inverts_encode t] at h1
  exact (Option.some.inj h1).symm

/-- Non-vacuity: the decoder is not trivial; it rejects malformed text and the encoding of a real text is the usual one. -/
example : Base64.encode b!"Hello" = b!"SGVsbG8=" ∧ Spec.Base64.decode b!"SGVsbG8=" = some b!"Hello"
    ∧ Spec.Base64.decode b!"SGVsbG8" = none ∧ Spec.Base64.decode b!"SGVs\r\nbG8=" = some b!"Hello"
    ∧ Spec.Base64.decode b!"SGVsbG9=" = none := by decide

/-- **C02** (exact behaviour). `Decode(Encode(s))` is the first 49152 bytes of `s`. -/
theorem C02_decode_encode_exact (s : Bytes) : Base64.decode (Base64.encode s) = s.take 49152 :=
  Proofs.Base64.decode_encodeFrom s 0 rfl (by omega)

/-- **C02, partial.** The round trip through the library's own decoder holds for inputs up to 49152 bytes. Missing: longer
inputs, for which it is false (next theorem). -/
theorem C02_decode_inverts_encode_partial (s : Bytes) (h : s.length ≤ 49152) :
    Base64.decode (Base64.encode s) = s := by
  rw [C02_decode_encode_exact, List.take_of_length_le h]

/-- **C02, refuted** for every longer input: the full claim does not hold of the code. -/
theorem C02_round_trip_fails_iff_long (s : Bytes) :
    Base64.decode (Base64.encode s) ≠ s ↔ 49152 < s.length := by
  rw [C02_decode_encode_exact]
  constructor
  · intro h
    apply Nat.lt_of_not_le
    intro hle
    exact h (List.take_of_length_le hle)
  · intro h heq
    have := congrArg List.length heq
    simp only [List.length_take] at this
    omega

/-- **C02, refuted**: a concrete input. -/
theorem C02_round_trip_fails : ∃ s : Bytes, Base64.decode (Base64.encode s) ≠ s :=
  ⟨List.replicate 49153 65, (C02_round_trip_fails_iff_long _).mpr (by rw [List.length_replicate]; omega)⟩

example : ([1, 2, 3, 255] : Bytes).length ≤ 49152 ∧ Base64.decode (Base64.encode [1, 2, 3, 255]) = [1, 2, 3, 255] := by
  decide

/-- **C03** Only characters of the alphabet, padding and line breaks; in particular no NUL, so the text survives being
passed as a C string. -/
theorem C03_encode_alphabet (s : Bytes) : ∀ c ∈ Base64.encode s, Spec.Base64.Alphabet c ∨ c = 13 ∨ c = 10 := by
  intro c hc
  rcases Proofs.Base64.mem_encodeFrom s 0 c hc with ⟨i, hi, rfl⟩ | h | h | h
  · left; left; rw [Proofs.Base64.value_charAt i hi]; rfl
  · left; right; exact h
  · right; left; exact h
  · right; right; exact h

theorem C03_encode_no_nul (s : Bytes) : ∀ c ∈ Base64.encode s, c ≠ 0 := by
  intro c hc h0
  rcases C03_encode_alphabet s c hc with (h | h) | h | h <;> subst h0
  · exact absurd h (by decide)
  · exact absurd h (by decide)
  · exact absurd h (by decide)
  · exact absurd h (by decide)

/-- **C03** Exact output length. -/
theorem C03_encode_length (s : Bytes) :
    (Base64.encode s).length = 4 * ((s.length + 2) / 3) + 2 * (s.length / 49152) := by
  have := Proofs.Base64.length_encodeFrom s 0 rfl
  unfold Base64.encode
  omega

/-- **C03** No line is longer than 65536 characters. -/
theorem C03_encode_line_length (s : Bytes) : ∀ l ∈ Spec.lines (Base64.encode s), l.length ≤ 65536 := by
  obtain ⟨l, ls, h1, h2, h3⟩ := Proofs.Base64.lines_encodeFrom s 0 rfl
  intro x hx
  unfold Base64.encode at hx
  rw [h1] at hx
  rcases List.mem_cons.mp hx with rfl | hx
  · omega
  · exact h3 x hx

/-- **C03** There is a line break in the output exactly when the input has at least 49152 bytes. -/
theorem C03_single_line_iff (s : Bytes) : (∀ c ∈ Base64.encode s, c ≠ 13 ∧ c ≠ 10) ↔ s.length < 49152 := by
  constructor
  · intro h
    apply Nat.lt_of_not_le
    intro hle
    have hlen := C03_encode_length s
    have hl := C03_encode_line_length s (Base64.encode s) (by
      rw [Proofs.lines_noCR _ (fun c hc => (h c hc).1)]; simp)
    by_cases hlt : s.length < 49153
    · have : s.length = 49152 := by omega
      rw [this] at hlen
      omega
    · omega
  · intro h
    exact Proofs.Base64.noBreak_encodeFrom s 0 rfl (by omega)

/-- Non-vacuity: both kinds of input exist. -/
example : (∃ s : Bytes, s.length < 49152) ∧ ∃ s : Bytes, ¬ s.length < 49152 :=
  ⟨⟨b!"user", by decide⟩, ⟨List.replicate 49152 0, by rw [List.length_replicate]; omega⟩⟩

end Verif.Props
