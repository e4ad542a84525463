/-
`hex` and `base64` of an encoded object, for every class at once.
-/
import Verif.Lemmas.BinOk
import Verif.Lemmas.Transport
import Verif.Spec.Hex

namespace Epc
open Spec

theorem upper_facts {c : Char} (h : c ∈ py "0123456789ABCDEF") :
    c ∈ py "0123456789abcdefABCDEF" ∧ digitVal c = some (hexDigit c) ∧ hexDigit c < 16 ∧ (nibble c).length = 4 ∧
      CanonDigits 2 (nibble c) ∧ digVal 2 (nibble c) = hexDigit c := by
  have : ∀ c ∈ py "0123456789ABCDEF", c ∈ py "0123456789abcdefABCDEF" ∧ digitVal c = some (hexDigit c) ∧ hexDigit c < 16 ∧
      (nibble c).length = 4 ∧ (∀ d ∈ nibble c, d = '0' ∨ d = '1') ∧ digVal 2 (nibble c) = hexDigit c := by decide +kernel
  obtain ⟨h1, h2, h3, h4, h5, h6⟩ := this c h
  exact ⟨h1, h2, h3, h4, canonDigits_two.2 h5, h6⟩

theorem HexDigits_of_upper {h : Str} (hh : UpperHex h) : HexDigits h := fun c hc => (upper_facts (hh c hc)).1

theorem length_hexBits {h : Str} (hh : UpperHex h) : (hexBits h).length = h.length * 4 := by
  induction h with
  | nil => rfl
  | cons c h ih =>
    have h1 := (upper_facts (hh c (.head _))).2.2.2.1
    have h2 := ih fun c hc => hh c (.tail _ hc)
    unfold hexBits at h2 ⊢
    rw [List.flatMap_cons, List.length_append, h1, h2, List.length_cons]; omega

theorem canon_hexBits {h : Str} (hh : UpperHex h) : CanonDigits 2 (hexBits h) := by
  induction h with
  | nil => exact canonDigits_two.2 (by simp [hexBits])
  | cons c h ih =>
    have h1 := (upper_facts (hh c (.head _))).2.2.2.2.1
    have h2 := ih fun c hc => hh c (.tail _ hc)
    unfold hexBits at h2 ⊢
    rw [List.flatMap_cons]
    exact CanonDigits.append.2 ⟨h1, h2⟩

theorem digVal_hexBits {h : Str} (hh : UpperHex h) : digVal 2 (hexBits h) = digVal 16 h := by
  induction h with
  | nil => rfl
  | cons c h ih =>
    have hc := upper_facts (hh c (.head _))
    have hh' : UpperHex h := fun c hc => hh c (.tail _ hc)
    have h2 := ih hh'
    have hl := length_hexBits hh'
    have e : hexBits (c :: h) = nibble c ++ hexBits h := rfl
    rw [e, digVal_append, hc.2.2.2.2.2, hl, h2, show c :: h = [c] ++ h from rfl, digVal_append, pow_sixteen]
    congr 2
    simp [digVal, digValFrom, hc.2.1]

theorem bin_hex {h : Str} (hh : UpperHex h) (hne : h ≠ []) : bin (h.length * 4) (digVal 16 h) = hexBits h := by
  rw [← digVal_hexBits hh, ← length_hexBits hh]
  refine bin_digVal (canon_hexBits hh) fun e => ?_
  have h1 := length_hexBits hh
  rw [e] at h1
  exact hne (List.length_eq_zero_iff.1 (by simp at h1; omega))

theorem upper_digitChar {d : Nat} (h : d < 16) : upperChar (Nat.digitChar d) ∈ py "0123456789ABCDEF" :=
  (by decide +kernel : ∀ d : Fin 16, upperChar (Nat.digitChar d) ∈ py "0123456789ABCDEF") ⟨d, h⟩

/-- The hexadecimal form of a bit string that does not start with four zeros. -/
theorem hexOf_form {b : Str} (hb : Bits b) (hl : 4 ≤ b.length) (hz : b.take 4 ≠ py "0000") :
    ∃ h, hexOf (.ok b) = .ok h ∧ UpperHex h ∧ h.length = (b.length + 15) / 16 * 4 ∧
      hexBits h = b ++ List.replicate (wordPad b.length) '0' ∧ hexToBinary h = .ok (b ++ List.replicate (wordPad b.length) '0') := by
  have hpad : padRight '0' (b.length + wordPad b.length) b = b ++ List.replicate (wordPad b.length) '0' := by
    unfold padRight; simp
  have hcb : CanonDigits 2 (b ++ List.replicate (wordPad b.length) '0') :=
    CanonDigits.append.2 ⟨(bits_iff b).1 hb, canonDigits_replicate _⟩
  have hne : b ++ List.replicate (wordPad b.length) '0' ≠ [] := by
    intro e
    have := congrArg List.length e
    simp at this
    rw [this.1] at hl; simp at hl
  have hlen : (b ++ List.replicate (wordPad b.length) '0').length = (b.length + 15) / 16 * 16 := by
    simp [wordPad]; omega
  have hz' : (b ++ List.replicate (wordPad b.length) '0').take 4 ≠ py "0000" := by
    rwa [List.take_append_of_le_length hl]
  have hdl := length_toDigits_bits hcb (by rw [hlen]; omega) hne hz'
  have hup : UpperHex ((Nat.toDigits 16 (digVal 2 (b ++ List.replicate (wordPad b.length) '0'))).map upperChar) := by
    intro c hc
    rw [List.mem_map] at hc
    obtain ⟨d, hd, rfl⟩ := hc
    obtain ⟨k, hk, rfl⟩ := canonDigits_toDigits (b := 16) (by decide) _ hd
    exact upper_digitChar hk
  have hlh : ((Nat.toDigits 16 (digVal 2 (b ++ List.replicate (wordPad b.length) '0'))).map upperChar).length = (b.length + 15) / 16 * 4 := by
    rw [List.length_map]; omega
  have hnh : (Nat.toDigits 16 (digVal 2 (b ++ List.replicate (wordPad b.length) '0'))).map upperChar ≠ [] := by
    intro e
    rw [e] at hlh
    simp at hlh; omega
  have e1 : hexToBinary ((Nat.toDigits 16 (digVal 2 (b ++ List.replicate (wordPad b.length) '0'))).map upperChar) =
      .ok (b ++ List.replicate (wordPad b.length) '0') := by
    have h := binary_hex_binary ((bits_iff _).2 hcb) (by rw [hlen]; omega) hne hz'
    rwa [binaryToHex_eq hcb hne] at h
  refine ⟨_, ?_, hup, hlh, ?_, e1⟩
  · unfold hexOf
    rw [ok_bind]
    dsimp only
    rw [show (16 - b.length % 16) % 16 = wordPad b.length from rfl, hpad, pyInt_bits hcb hne, ok_bind, pure_ok]
    unfold fmtHexUpper
    rw [if_neg (by omega)]
    simp
  · rw [hexToBinary_eq (hexDigits_digitsIn (HexDigits_of_upper hup)) hnh] at e1
    injection e1 with e1
    rw [← bin_hex hup hnh]
    exact e1

theorem BinOk.enc_form {α : Type} {n : Nat} {x : α} {enc : Fin n → Except Err Str} {dec : Str → Except Err α} {hd : Str}
    {fb : Fin n → Str} {rest : Str} (H : BinOk x enc dec hd fb rest) (hb : Bits hd) (fbb : ∀ f, Bits (fb f)) (f : Fin n) :
    ∃ b, enc f = .ok b ∧ Bits b ∧ b = hd ++ (fb f ++ rest) ∧ ∀ tail, dec (b ++ tail) = .ok x :=
  ⟨_, H.enc_eq f, Bits_append.2 ⟨hb, Bits_append.2 ⟨fbb f, H.bits⟩⟩, rfl, fun tail => H.dec_eq f tail⟩

/-- `hex` of an encoded object. -/
theorem BinOk.hex {α : Type} {n : Nat} {x : α} {enc : Fin n → Except Err Str} {dec : Str → Except Err α} {hd : Str}
    {fb : Fin n → Str} {rest : Str} (H : BinOk x enc dec hd fb rest) (hb : Bits hd) (fbb : ∀ f, Bits (fb f))
    (h8 : hd.length = 8) (hz : hd.take 4 ≠ py "0000") (f : Fin n) :
    ∃ b h, enc f = .ok b ∧ hexOf (enc f) = .ok h ∧ UpperHex h ∧ h.length = (b.length + 15) / 16 * 4 ∧
      hexBits h = b ++ List.replicate (wordPad b.length) '0' ∧ fromHexWith dec h = .ok x := by
  obtain ⟨b, e, hB, hbe, hd'⟩ := H.enc_form hb fbb f
  obtain ⟨h, e1, e2, e3, e4, e5⟩ := hexOf_form hB (by rw [hbe]; simp; omega)
    (by rw [hbe, List.take_append_of_le_length (by omega)]; exact hz)
  refine ⟨b, h, e, by rw [e]; exact e1, e2, e3, e4, ?_⟩
  unfold fromHexWith
  rw [e5, ok_bind]
  exact hd' _

/-- Lower-case digits are read as well. -/
theorem fromHexWith_lower {α : Type} {dec : Str → Except Err α} {h : Str} (hh : HexDigits h) :
    fromHexWith dec (h.map lowerChar) = fromHexWith dec h := by
  unfold fromHexWith
  rw [hexToBinary_lower hh]

/-- `base64` of an encoded object. -/
theorem BinOk.base64 {α : Type} {n : Nat} {x : α} {enc : Fin n → Except Err Str} {dec : Str → Except Err α} {hd : Str}
    {fb : Fin n → Str} {rest : Str} (H : BinOk x enc dec hd fb rest) (hb : Bits hd) (fbb : ∀ f, Bits (fb f))
    (h8 : hd.length = 8) (hz : hd.take 4 ≠ py "0000") (f : Fin n) :
    ∃ s, base64Of (enc f) = .ok s ∧ fromBase64With dec s = .ok x ∧ fromBase64With dec (dropRightWhile (· == '=') s) = .ok x := by
  obtain ⟨b, h, _, e, e2, e3, _, e5⟩ := H.hex hb fbb h8 hz f
  have hh := HexDigits_of_upper e2
  have hl : h.length % 2 = 0 := by rw [e3]; omega
  obtain ⟨bs, eb, hbs, hx⟩ := hexToBase64_eq hh hl
  refine ⟨b64encode bs, ?_, ?_, ?_⟩
  · unfold base64Of; rw [e, ok_bind]; exact eb
  · unfold fromBase64With
    rw [base64ToHex_encode hbs, ok_bind, hx, fromHexWith_lower hh]; exact e5
  · unfold fromBase64With
    rw [base64ToHex_stripped hbs, ok_bind, hx, fromHexWith_lower hh]; exact e5

end Epc
