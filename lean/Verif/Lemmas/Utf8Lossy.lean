import Verif.Model.Utf8Lossy
import Verif.Lemmas.RecordOutput
namespace MBus.Xml
open MBus.Spec

theorem encode_length (c : Char) : (String.utf8EncodeChar c).length = c.utf8Size := String.length_utf8EncodeChar c

theorem encode_ne (c : Char) : String.utf8EncodeChar c ≠ [] := by
  intro h
  have := encode_length c
  rw [h] at this
  have := c.utf8Size_pos
  simp_all

theorem lossyLoop_encode (fuel : Nat) (c : Char) (rest : List UInt8) :
    lossyLoop (fuel + 1) (String.utf8EncodeChar c ++ rest) = c :: lossyLoop fuel rest := by
  have hd : (String.utf8EncodeChar c ++ rest).toByteArray.utf8DecodeChar? 0 = some c := by
    rw [List.toByteArray_append]
    exact ByteArray.utf8DecodeChar?_utf8EncodeChar_append
  have hdrop : (String.utf8EncodeChar c ++ rest).drop c.utf8Size = rest := by
    rw [← encode_length, List.drop_left]
  generalize hb : String.utf8EncodeChar c ++ rest = bytes at *
  cases bytes with
  | nil => exact absurd (List.append_eq_nil_iff.1 hb).1 (encode_ne c)
  | cons b bs => simp only [lossyLoop, hd, hdrop]

theorem lossyLoop_utf8 (t : List Char) : ∀ fuel, (utf8 t).length ≤ fuel → lossyLoop fuel (utf8 t) = t := by
  induction t with
  | nil => intro fuel _; cases fuel <;> rfl
  | cons c t ih =>
    intro fuel hf
    have he : utf8 (c :: t) = String.utf8EncodeChar c ++ utf8 t := rfl
    rw [he] at hf ⊢
    have hp := c.utf8Size_pos
    rw [List.length_append, encode_length] at hf
    obtain ⟨fuel, rfl⟩ : ∃ n, fuel = n + 1 := ⟨fuel - 1, by omega⟩
    rw [lossyLoop_encode, ih fuel (by omega)]

/-- Valid UTF-8 is decoded. -/
theorem utf8Lossy_utf8 (t : List Char) : utf8Lossy (utf8 t) = t := lossyLoop_utf8 t _ le_rfl

theorem lossyLoop_lossless : ∀ (fuel : Nat) (bytes : List UInt8), bytes.length ≤ fuel →
    Char.ofNat 0xFFFD ∉ lossyLoop fuel bytes → bytes = utf8 (lossyLoop fuel bytes) := by
  intro fuel
  induction fuel with
  | zero => intro bytes h _; rw [List.length_eq_zero_iff.1 (Nat.le_zero.1 h)]; rfl
  | succ fuel ih =>
    intro bytes h hn
    cases bytes with
    | nil => rfl
    | cons b bs =>
      simp only [lossyLoop] at hn ⊢
      cases hd : (b :: bs).toByteArray.utf8DecodeChar? 0 with
      | none => rw [hd] at hn; simp at hn
      | some c =>
        rw [hd] at hn
        simp only at hn ⊢
        obtain ⟨l, hl⟩ := ByteArray.exists_of_utf8DecodeChar?_eq_some hd
        have hl' : b :: bs = String.utf8EncodeChar c ++ l.data.toList := by
          have h2 := congrArg (fun x => x.data.toList) hl
          simpa [List.toList_data_toByteArray] using h2
        have hdrop : (b :: bs).drop c.utf8Size = l.data.toList := by
          rw [hl', ← encode_length, List.drop_left]
        rw [hdrop] at hn ⊢
        have hlen := congrArg List.length hl'
        rw [List.length_append, encode_length] at hlen
        have := c.utf8Size_pos
        rw [hl']
        show _ = String.utf8EncodeChar c ++ utf8 _
        rw [← ih l.data.toList (by omega) (fun hc => hn (List.mem_cons_of_mem _ hc))]

/-- Without a replacement character nothing is lost. -/
theorem utf8Lossy_lossless (bytes : List UInt8) (h : Char.ofNat 0xFFFD ∉ utf8Lossy bytes) :
    bytes = utf8 (utf8Lossy bytes) := lossyLoop_lossless _ bytes le_rfl h

end MBus.Xml
