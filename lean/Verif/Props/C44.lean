/-
C44: hexadecimal input is case-insensitive.

`h.map Char.toLower = h'.map Char.toLower` (`Char.toLower` of the Lean library) says that `h` and `h'` differ at most in the case of
their letters.
-/
import Verif.Lemmas.LowerBin
import Verif.Lemmas.HexForm
import Verif.Lemmas.BinChars

namespace Epc
open Spec Re

theorem toLower_eq_lowerChar (c : Char) : c.toLower = lowerChar c := by
  unfold Char.toLower lowerChar
  by_cases h : c.val ≥ 'A'.val ∧ c.val ≤ 'Z'.val
  · rw [dif_pos h, if_pos (show 'A' ≤ c ∧ c ≤ 'Z' from h)]
    have h1 : 65 ≤ c.toNat := h.1
    have h2 : c.toNat ≤ 90 := h.2
    apply Char.toNat_inj.1
    have : ∀ n, n < 91 → (Char.ofNat (n + 32)).toNat = n + 32 := by decide
    rw [this _ (by omega)]
    show (c.val + 32).toNat = c.val.toNat + 32
    rw [UInt32.toNat_add]
    have : c.val.toNat ≤ 90 := h2
    have e32 : (32 : UInt32).toNat = 32 := rfl
    omega
  · rw [dif_neg h, if_neg (show ¬ ('A' ≤ c ∧ c ≤ 'Z') from h)]

theorem low_of_case {h h' : Str} (e : h.map Char.toLower = h'.map Char.toLower) : low h = low h' := by
  have : (Char.toLower : Char → Char) = lowerChar := funext toLower_eq_lowerChar
  rw [this] at e
  exact e

theorem lower_isHex {c : Char} (h : lowerChar c ∈ py "0123456789abcdefABCDEF") : c ∈ py "0123456789abcdefABCDEF" := by
  rcases lowerChar_cases c with e | ⟨h1, h2, h3⟩
  · rw [e] at h; exact h
  · have : ∀ n, n < 91 → lowerChar (Char.ofNat n) ∈ py "0123456789abcdefABCDEF" → Char.ofNat n ∈ py "0123456789abcdefABCDEF" := by
      decide
    have hc : Char.ofNat c.toNat = c := Char.ofNat_toNat c
    have := this c.toNat (by omega)
    rw [hc] at this
    exact this h

theorem hexDigits_low {h : Str} (hh : HexDigits h) : HexDigits (low h) := by
  intro c hc
  obtain ⟨d, hd, rfl⟩ := List.mem_map.1 hc
  have : ∀ d ∈ py "0123456789abcdefABCDEF", lowerChar d ∈ py "0123456789abcdefABCDEF" := by decide
  exact this d (hh d hd)

theorem hexDigits_of_low {h : Str} (hh : HexDigits (low h)) : HexDigits h := by
  intro c hc
  exact lower_isHex (hh _ (List.mem_map.2 ⟨c, hc, rfl⟩))

theorem hexDigits_case {h h' : Str} (hh : HexDigits h) (e : h.map Char.toLower = h'.map Char.toLower) : HexDigits h' :=
  hexDigits_of_low (by rw [← low_of_case e]; exact hexDigits_low hh)

theorem fromHexWith_case {α : Type} {dec : Str → Except Err α} {h h' : Str} (hh : HexDigits h)
    (e : h.map Char.toLower = h'.map Char.toLower) : fromHexWith dec h = fromHexWith dec h' := by
  rw [← fromHexWith_lower hh, ← fromHexWith_lower (hexDigits_case hh e)]
  congr 1
  exact low_of_case e

/-- The generic parser. -/
theorem C44_hex_to_tag_encodable (h h' : Str) (hh : HexDigits h) (e : h.map Char.toLower = h'.map Char.toLower) :
    hexToTagEncodable h = hexToTagEncodable h' :=
  fromHexWith_case (dec := binaryToTagEncodable) hh e

theorem C44_sgtin (h h' : Str) (hh : HexDigits h) (e : h.map Char.toLower = h'.map Char.toLower) : SGTIN.fromHex h = SGTIN.fromHex h' :=
  fromHexWith_case hh e

theorem C44_sscc (h h' : Str) (hh : HexDigits h) (e : h.map Char.toLower = h'.map Char.toLower) : SSCC.fromHex h = SSCC.fromHex h' :=
  fromHexWith_case hh e

theorem C44_sgln (h h' : Str) (hh : HexDigits h) (e : h.map Char.toLower = h'.map Char.toLower) : SGLN.fromHex h = SGLN.fromHex h' :=
  fromHexWith_case hh e

theorem C44_grai (h h' : Str) (hh : HexDigits h) (e : h.map Char.toLower = h'.map Char.toLower) : GRAI.fromHex h = GRAI.fromHex h' :=
  fromHexWith_case hh e

theorem C44_giai (h h' : Str) (hh : HexDigits h) (e : h.map Char.toLower = h'.map Char.toLower) : GIAI.fromHex h = GIAI.fromHex h' :=
  fromHexWith_case hh e

theorem C44_gid (h h' : Str) (hh : HexDigits h) (e : h.map Char.toLower = h'.map Char.toLower) : GID.fromHex h = GID.fromHex h' :=
  fromHexWith_case hh e

theorem C44_gsrn (h h' : Str) (hh : HexDigits h) (e : h.map Char.toLower = h'.map Char.toLower) : GSRN.fromHex h = GSRN.fromHex h' :=
  fromHexWith_case hh e

theorem C44_gsrnp (h h' : Str) (hh : HexDigits h) (e : h.map Char.toLower = h'.map Char.toLower) : GSRNP.fromHex h = GSRNP.fromHex h' :=
  fromHexWith_case hh e

theorem C44_gdti (h h' : Str) (hh : HexDigits h) (e : h.map Char.toLower = h'.map Char.toLower) : GDTI.fromHex h = GDTI.fromHex h' :=
  fromHexWith_case hh e

theorem C44_cpi (h h' : Str) (hh : HexDigits h) (e : h.map Char.toLower = h'.map Char.toLower) : CPI.fromHex h = CPI.fromHex h' :=
  fromHexWith_case hh e

theorem C44_sgcn (h h' : Str) (hh : HexDigits h) (e : h.map Char.toLower = h'.map Char.toLower) : SGCN.fromHex h = SGCN.fromHex h' :=
  fromHexWith_case hh e

theorem C44_usdod (h h' : Str) (hh : HexDigits h) (e : h.map Char.toLower = h'.map Char.toLower) : USDOD.fromHex h = USDOD.fromHex h' :=
  fromHexWith_case hh e

theorem C44_adi (h h' : Str) (hh : HexDigits h) (e : h.map Char.toLower = h'.map Char.toLower) : ADI.fromHex h = ADI.fromHex h' :=
  fromHexWith_case hh e

theorem C44_itip (h h' : Str) (hh : HexDigits h) (e : h.map Char.toLower = h'.map Char.toLower) : ITIP.fromHex h = ITIP.fromHex h' :=
  fromHexWith_case hh e

/-- No string of hexadecimal digits matches a pattern whose derivatives by hexadecimal digits are empty. -/
theorem nomatch_hex {r : Re} (h0 : r.nullable = false)
    (h1 : (py "0123456789abcdefABCDEF").all (fun c => match r.deriv c with | .none => true | _ => false) = true)
    {h : Str} (hh : HexDigits h) : r.fullmatch h = false := by
  cases h with
  | nil => exact h0
  | cons c h =>
    have := List.all_eq_true.1 h1 c (hh c List.mem_cons_self)
    rw [Re.fullmatch]
    cases hd : r.deriv c <;> rw [hd] at this <;> first | rfl | cases this

theorem nomatch_hex_all {h : Str} (hh : HexDigits h) : Rx.epcUri.fullmatch h = false ∧ Rx.gs1Elem.fullmatch h = false ∧
    Rx.tagUri.fullmatch h = false ∧ Rx.idpatUri.fullmatch h = false :=
  ⟨nomatch_hex (by decide +kernel) (by decide +kernel) hh, nomatch_hex (by decide +kernel) (by decide +kernel) hh,
    nomatch_hex (by decide +kernel) (by decide +kernel) hh, nomatch_hex (by decide +kernel) (by decide +kernel) hh⟩

theorem upper_lower_hex : ∀ c ∈ py "0123456789abcdefABCDEF", upperChar (lowerChar c) = upperChar c := by decide

theorem binaryToTagEncodable_low (b : Str) : binaryToTagEncodable (low b) = binaryToTagEncodable b := by
  unfold binaryToTagEncodable
  rw [low_take, lookup_low (by decide +kernel)]
  cases binaryHeaderTable.lookup (b.take 8) with
  | none => rfl
  | some c => exact c.fromBinary_low b

theorem gs1KeySource_low {h : Str} (hh : HexDigits h) (n : Option Int) : gs1KeySource (low h) n = gs1KeySource h n := by
  obtain ⟨a1, a2, a3, a4⟩ := nomatch_hex_all hh
  obtain ⟨b1, b2, b3, b4⟩ := nomatch_hex_all (hexDigits_low hh)
  have e2 : ((low h).take 2).map upperChar = (h.take 2).map upperChar := by
    rw [low_take]
    unfold low
    rw [List.map_map]
    exact List.map_congr_left (fun c hc => upper_lower_hex c (hh c (List.mem_of_mem_take hc)))
  have e3 : hexToTagEncodable (low h) = hexToTagEncodable h := fromHexWith_lower (dec := binaryToTagEncodable) hh
  unfold gs1KeySource
  simp only [a1, a2, a3, a4, b1, b2, b3, b4, Bool.false_eq_true, if_false, false_and]
  rw [low_take, lookup_low (by decide +kernel), binaryToTagEncodable_low, e2, e3]

/-- `get_gs1_key`, also when the first eight hexadecimal digits happen to be a binary header, which the code then takes for binary. -/
theorem C44_get_gs1_key (h h' : Str) (n : Option Int) (t : Option GtinType) (hh : HexDigits h)
    (e : h.map Char.toLower = h'.map Char.toLower) : getGs1Key h n t = getGs1Key h' n t := by
  unfold getGs1Key
  rw [← gs1KeySource_low hh, ← gs1KeySource_low (hexDigits_case hh e), low_of_case e]

/-- `"3074257BF7194E4000001A85"` in three spellings. -/
example : (py "3074257BF7194E4000001A85").map Char.toLower = (py "3074257bf7194e4000001a85").map Char.toLower ∧
    (py "3074257BF7194E4000001A85").map Char.toLower = (py "3074257bF7194e4000001a85").map Char.toLower ∧
    HexDigits (py "3074257BF7194E4000001A85") := by
  refine ⟨by decide, by decide, by unfold HexDigits; decide⟩
example : getGs1Key (py "3074257bf7194e4000001a85") = .ok (py "80614141123458") := by decide +kernel

end Epc
