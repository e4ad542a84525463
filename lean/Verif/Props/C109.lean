/-
C109: more of the memory of a tag is read than its EPC occupies.

`Forms` (`Spec/Relay`): a coding scheme and a filter value for which the object has a tag URI, and what `binary` and `hex` return for them.
`HexString`, `hexStringBits` (`Spec/Transport`): hexadecimal texts.
-/
import Verif.Lemmas.HexIn
import Verif.Lemmas.Program
import Verif.Props.C23
import Verif.Props.C27
import Verif.Props.C28
import Verif.Props.C39
import Verif.Props.C68
import Verif.Props.C72
import Verif.Props.C97

namespace Epc
open Spec

private theorem take8 {b : Str} (extra : Str) (h : b.take 8 ∈ binaryHeaderTable.map (·.1)) : (b ++ extra).take 8 = b.take 8 := by
  have hl : (b.take 8).length = 8 := by
    have : ∀ x ∈ binaryHeaderTable.map (·.1), x.length = 8 := by decide
    exact this _ h
  rw [List.length_take] at hl
  rw [List.take_append_of_le_length (by omega)]

private theorem long {α : Type} {dec : Str → Except Err α} {b : Str} {n : Nat} {y : α} (h : dec b = .ok y)
    (hs : b.length < n → dec b = .error .convert) : n ≤ b.length := by
  apply Classical.byContradiction
  intro hn
  rw [hs (by omega)] at h
  cases h

private theorem more {α : Type} {dec : Str → Except Err α} {inj : α → Scheme} {b extra : Str} {n : Nat} {y : Scheme}
    (hs : b.length < n → dec b = .error .convert) (he : n ≤ b.length → dec (b ++ extra) = dec b)
    (h : (dec b).map inj = .ok y) : (dec (b ++ extra)).map inj = .ok y := by
  obtain ⟨z, hz, -⟩ := map_ok_iff.1 h
  rw [he (long hz hs)]
  exact h

/-- Every bit string that is recognised, of every coding scheme but the two of variable length: what follows it does not matter. -/
theorem C109_fixed (b extra : Str) (y : Scheme) (hc : b.take 8 ≠ py "00111101") (ha : b.take 8 ≠ py "00111011")
    (h : binaryToTagEncodable b = .ok y) : binaryToTagEncodable (b ++ extra) = .ok y := by
  unfold binaryToTagEncodable at h
  split at h
  · cases h
  rename_i c hl
  have hm := lookup_mem hl
  have h8 := take8 extra (List.mem_map_of_mem (f := (·.1)) hm)
  unfold binaryToTagEncodable
  rw [h8, hl]
  have hm' : (b.take 8, c) ∈ ([(py "00110000", .sgtin), (py "00110110", .sgtin), (py "00110001", .sscc), (py "00110010", .sgln),
      (py "00111001", .sgln), (py "00110011", .grai), (py "00110111", .grai), (py "00110100", .giai),
      (py "00111000", .giai), (py "00101101", .gsrn), (py "00101110", .gsrnp), (py "00101100", .gdti),
      (py "00111110", .gdti), (py "00111100", .cpi), (py "00111111", .sgcn), (py "01000000", .itip),
      (py "01000001", .itip), (py "00110101", .gid), (py "00101111", .usdod), (py "00111101", .cpi),
      (py "00111011", .adi)] : List (Str × Cls)) := by
    have : ∀ p ∈ binaryHeaderTable, p ∈ ([(py "00110000", .sgtin), (py "00110110", .sgtin), (py "00110001", .sscc), (py "00110010", .sgln),
        (py "00111001", .sgln), (py "00110011", .grai), (py "00110111", .grai), (py "00110100", .giai),
        (py "00111000", .giai), (py "00101101", .gsrn), (py "00101110", .gsrnp), (py "00101100", .gdti),
        (py "00111110", .gdti), (py "00111100", .cpi), (py "00111111", .sgcn), (py "01000000", .itip),
        (py "01000001", .itip), (py "00110101", .gid), (py "00101111", .usdod), (py "00111101", .cpi),
        (py "00111011", .adi)] : List (Str × Cls)) := by decide
    exact this _ hm
  simp only [List.mem_cons, Prod.mk.injEq, List.not_mem_nil, or_false] at hm'
  rcases hm' with ⟨hk, rfl⟩ | ⟨hk, rfl⟩ | ⟨hk, rfl⟩ | ⟨hk, rfl⟩ | ⟨hk, rfl⟩ | ⟨hk, rfl⟩ | ⟨hk, rfl⟩ | ⟨hk, rfl⟩ | ⟨hk, rfl⟩ | ⟨hk, rfl⟩ | ⟨hk, rfl⟩ | ⟨hk, rfl⟩ | ⟨hk, rfl⟩ | ⟨hk, rfl⟩ | ⟨hk, rfl⟩ | ⟨hk, rfl⟩ | ⟨hk, rfl⟩ | ⟨hk, rfl⟩ | ⟨hk, rfl⟩ | ⟨hk, rfl⟩ | ⟨hk, rfl⟩
  · exact more (dec := SGTIN.fromBinary) (n := 96) (C28_sgtin96 b hk) (C27_sgtin96 b extra hk) h
  · exact more (dec := SGTIN.fromBinary) (n := 198) (C28_sgtin198 b hk) (C27_sgtin198 b extra hk) h
  · exact more (dec := SSCC.fromBinary) (n := 96) (C28_sscc96 b hk) (C27_sscc96 b extra hk) h
  · exact more (dec := SGLN.fromBinary) (n := 96) (C28_sgln96 b hk) (C27_sgln96 b extra hk) h
  · exact more (dec := SGLN.fromBinary) (n := 195) (C28_sgln195 b hk) (C27_sgln195 b extra hk) h
  · exact more (dec := GRAI.fromBinary) (n := 96) (C28_grai96 b hk) (C27_grai96 b extra hk) h
  · exact more (dec := GRAI.fromBinary) (n := 170) (C28_grai170 b hk) (C27_grai170 b extra hk) h
  · exact more (dec := GIAI.fromBinary) (n := 96) (C28_giai96 b hk) (C27_giai96 b extra hk) h
  · exact more (dec := GIAI.fromBinary) (n := 202) (C28_giai202 b hk) (C27_giai202 b extra hk) h
  · exact more (dec := GSRN.fromBinary) (n := 96) (C28_gsrn96 b hk) (C27_gsrn96 b extra hk) h
  · exact more (dec := GSRNP.fromBinary) (n := 96) (C28_gsrnp96 b hk) (C27_gsrnp96 b extra hk) h
  · exact more (dec := GDTI.fromBinary) (n := 96) (C28_gdti96 b hk) (C27_gdti96 b extra hk) h
  · exact more (dec := GDTI.fromBinary) (n := 174) (C28_gdti174 b hk) (C27_gdti174 b extra hk) h
  · exact more (dec := CPI.fromBinary) (n := 96) (C28_cpi96 b hk) (C27_cpi96 b extra hk) h
  · exact more (dec := SGCN.fromBinary) (n := 96) (C28_sgcn96 b hk) (C27_sgcn96 b extra hk) h
  · exact more (dec := ITIP.fromBinary) (n := 110) (C28_itip110 b hk) (C27_itip110 b extra hk) h
  · exact more (dec := ITIP.fromBinary) (n := 212) (C28_itip212 b hk) (C27_itip212 b extra hk) h
  · exact more (dec := GID.fromBinary) (n := 96) (C28_gid96 b hk) (C27_gid96 b extra hk) h
  · exact more (dec := USDOD.fromBinary) (n := 96) (C28_usdod96 b hk) (C27_usdod96 b extra hk) h
  · exact absurd hk hc
  · exact absurd hk ha

private theorem lookup_cpi (b : Str) (h : b.take 8 = py "00111101") : binaryToTagEncodable b = (CPI.fromBinary b).map .cpi := by
  unfold binaryToTagEncodable
  rw [h]; rfl

private theorem lookup_adi (b : Str) (h : b.take 8 = py "00111011") : binaryToTagEncodable b = (ADI.fromBinary b).map .adi := by
  unfold binaryToTagEncodable
  rw [h]; rfl

private theorem map_inj {α : Type} {r : Except Err α} {inj : α → Scheme} (hi : ∀ a b, inj a = inj b → a = b) {x : α} (h : r.map inj = .ok (inj x)) :
    r = .ok x := by
  obtain ⟨y, hy, e⟩ := map_ok_iff.1 h
  rw [hy, hi _ _ e]

private theorem cpi_settled {u : Str} {x : CPI} {f : Fin 8} {b e : Str} (hu : CPI.new u = .ok x) (hb : x.binary .cpiVar f = .ok b)
    (h : binaryToTagEncodable (b ++ e) = .ok (.cpi x)) (e' : Str) : binaryToTagEncodable (b ++ e') = .ok (.cpi x) := by
  obtain ⟨r, -, er⟩ := CPI.binary_signed hb
  have h8 : ∀ e : Str, (b ++ e).take 8 = py "00111101" := by intro e; rw [er]; rfl
  obtain ⟨y, b', -, -, -, hb', -, -, hd, -⟩ := C68_cpi_var u x f hu
  cases hb.symm.trans hb'
  rw [lookup_cpi _ (h8 _), hd] at h ⊢
  exact h

private theorem adi_settled {u : Str} {x : ADI} {f : Fin 64} {b e : Str} (hu : ADI.new u = .ok x) (hb : x.binary .adiVar f = .ok b)
    (h : binaryToTagEncodable (b ++ e) = .ok (.adi x)) (e' : Str) : binaryToTagEncodable (b ++ e') = .ok (.adi x) := by
  obtain ⟨r, -, er⟩ := ADI.binary_signed hb
  have h8 : ∀ e : Str, (b ++ e).take 8 = py "00111011" := by intro e; rw [er]; rfl
  obtain ⟨rp, hr, hp⟩ := C23_adi_part u x hu
  rw [lookup_adi _ (h8 _)] at h ⊢
  have hx := map_inj (fun _ _ e => Scheme.adi.inj e) h
  have hz : ¬ EarlyTerminator rp := fun hz => ADI.fromBinary_early hu hr hp hz f e hb hx
  obtain ⟨rest, -, H⟩ := ADI.binOk_adiVar hu hr hp hz
  have he := H.enc_eq f
  rw [hb] at he
  cases he
  rw [H.dec_eq f e']; rfl

private theorem bits_append (h extra : Str) : hexStringBits (h ++ extra) = hexStringBits h ++ hexStringBits extra := by
  unfold hexStringBits asciiDigits
  rw [List.map_append, List.map_append, layout_append]

private theorem hex_read {h : Str} {y : Scheme} (hy : hexToTagEncodable h = .ok y) :
    HexString h ∧ binaryToTagEncodable (hexStringBits h) = .ok y := by
  have hs : HexString h := by
    apply Classical.byContradiction
    intro hn
    unfold hexToTagEncodable at hy
    rcases hexToBinary_other hn with e | ⟨b, e, hb⟩
    · rw [e, error_bind] at hy; cases hy
    · rw [e, ok_bind] at hy
      unfold binaryToTagEncodable at hy
      split at hy
      · cases hy
      · rename_i c hl
        have hm := lookup_mem hl
        have : ∀ p ∈ binaryHeaderTable, p.1.take 4 ≠ py "0000" ∧ p.1.head? ≠ some '-' := by decide
        have := this _ hm
        rcases hb with hb | hb
        · refine absurd ?_ this.1
          rw [List.take_take]; exact hb
        · refine absurd ?_ this.2
          cases b with
          | nil => cases hb
          | cons a b => exact hb
  refine ⟨hs, ?_⟩
  unfold hexToTagEncodable at hy
  rw [hexToBinary_string hs, ok_bind] at hy
  exact hy

private theorem hex_more {h extra : Str} (hs : HexString h) (he : ∀ c ∈ asciiDigits extra, c ∈ py "0123456789abcdefABCDEF") :
    hexToTagEncodable (h ++ extra) = binaryToTagEncodable (hexStringBits h ++ hexStringBits extra) := by
  have : HexString (h ++ extra) := by
    refine ⟨fun e => hs.1 (List.append_eq_nil_iff.1 e).1, fun c hc => ?_⟩
    unfold asciiDigits at hc
    rw [List.map_append] at hc
    rcases List.mem_append.1 hc with hc | hc
    · exact hs.2 c hc
    · exact he c hc
  unfold hexToTagEncodable
  rw [hexToBinary_string this, ok_bind, bits_append]

private theorem two_digits {h : Str} (hs : HexString h) :
    ((hexStringBits h).take 8 = py "00111101" → asciiDigits (h.take 2) = py "3D" ∨ asciiDigits (h.take 2) = py "3d") ∧
    ((hexStringBits h).take 8 = py "00111011" → asciiDigits (h.take 2) = py "3B" ∨ asciiDigits (h.take 2) = py "3b") := by
  obtain ⟨-, hs⟩ := hs
  have key : ∀ a ∈ py "0123456789abcdefABCDEF", ∀ b ∈ py "0123456789abcdefABCDEF",
      (bitsOf 4 (hexVal a) ++ bitsOf 4 (hexVal b) = py "00111101" → [a, b] = py "3D" ∨ [a, b] = py "3d") ∧
      (bitsOf 4 (hexVal a) ++ bitsOf 4 (hexVal b) = py "00111011" → [a, b] = py "3B" ∨ [a, b] = py "3b") ∧
      (bitsOf 4 (hexVal a) ++ bitsOf 4 (hexVal b)).length = 8 := by decide +kernel
  have one : ∀ a ∈ py "0123456789abcdefABCDEF", (bitsOf 4 (hexVal a)).length = 4 := by decide
  match h, hs with
  | [], _ => exact ⟨fun h => (by cases h), fun h => (by cases h)⟩
  | [a], hs =>
    have ha := one (asciiDigit a) (hs _ (by simp [asciiDigits]))
    have e : hexStringBits [a] = bitsOf 4 (hexVal (asciiDigit a)) := by simp [hexStringBits, asciiDigits, layout]
    rw [e]
    constructor <;> intro h <;> have := congrArg List.length h <;> rw [List.length_take, ha] at this <;> cases this
  | a :: b :: r, hs =>
    have k := key (asciiDigit a) (hs _ (by simp [asciiDigits])) (asciiDigit b) (hs _ (by simp [asciiDigits]))
    have e : hexStringBits (a :: b :: r) = bitsOf 4 (hexVal (asciiDigit a)) ++ bitsOf 4 (hexVal (asciiDigit b)) ++ hexStringBits r := by
      simp [hexStringBits, asciiDigits, layout]
    rw [e, List.take_left' k.2.2]
    exact ⟨k.1, k.2.1⟩

/-- Every hexadecimal text that is recognised and does not begin with one of the two headers of variable length: what follows it does not matter. -/
theorem C109_fixed_hex (h extra : Str) (y : Scheme) (hv : ∀ d ∈ [py "3D", py "3d", py "3B", py "3b"], asciiDigits (h.take 2) ≠ d)
    (he : ∀ c ∈ asciiDigits extra, c ∈ py "0123456789abcdefABCDEF") (hy : hexToTagEncodable h = .ok y) :
    hexToTagEncodable (h ++ extra) = .ok y := by
  obtain ⟨hs, hb⟩ := hex_read hy
  rw [hex_more hs he]
  refine C109_fixed _ _ y (fun e => ?_) (fun e => ?_) hb
  · rcases (two_digits hs).1 e with e | e <;> exact hv _ (by simp) e
  · rcases (two_digits hs).2 e with e | e <;> exact hv _ (by simp) e

/-- Every tag that the library writes and reads back: it is read back also if more bits follow. -/
theorem C109_binary (c : Cls) (u t b : Str) (x : Scheme) (h s : Except Err Str) (hu : c.new u = .ok x) (hf : Forms t (.ok b) h s x)
    (hb : binaryToTagEncodable b = .ok x) (extra : Str) : binaryToTagEncodable (b ++ extra) = .ok x := by
  by_cases hc : b.take 8 = py "00111101"
  · rw [lookup_cpi b hc] at hb
    obtain ⟨x', hx', rfl⟩ := map_ok_iff.1 hb
    have h1 : c = .cpi := ((Cls.new_facts hu).1).symm
    subst h1
    have hn := map_inj (fun _ _ e => Scheme.cpi.inj e) (show (CPI.new u).map _ = _ from hu)
    obtain ⟨cs, f, -, hb', -⟩ := hf
    cases cs with
    | cpi96 => obtain ⟨r, -, er⟩ := CPI.binary_signed hb'; rw [er] at hc; exact absurd hc (by simp [CPI.Coding.header])
    | cpiVar => exact cpi_settled (e := []) hn hb' (by rw [List.append_nil, lookup_cpi b hc, hx']; rfl) extra
  · by_cases ha : b.take 8 = py "00111011"
    · rw [lookup_adi b ha] at hb
      obtain ⟨x', hx', rfl⟩ := map_ok_iff.1 hb
      have h1 : c = .adi := ((Cls.new_facts hu).1).symm
      subst h1
      have hn := map_inj (fun _ _ e => Scheme.adi.inj e) (show (ADI.new u).map _ = _ from hu)
      obtain ⟨cs, f, -, hb', -⟩ := hf
      cases cs
      exact adi_settled (e := []) hn hb' (by rw [List.append_nil, lookup_adi b ha, hx']; rfl) extra
    · exact C109_fixed b extra x hc ha hb

private theorem hex_bits {b h : Str} (hB : Bits b) (hl : 4 ≤ b.length) (hz : b.take 4 ≠ py "0000") (hh : hexOf (.ok b) = .ok h) (hs : HexString h) :
    ∃ k, hexStringBits h = b ++ List.replicate k '0' := by
  obtain ⟨h', e1, -, -, -, e2⟩ := hexOf_form hB hl hz
  cases hh.symm.trans e1
  rw [hexToBinary_string hs] at e2
  exact ⟨_, Except.ok.inj e2⟩

/-- The same for hexadecimal text: every number of hexadecimal digits may follow. -/
theorem C109_hex (c : Cls) (u t h : Str) (x : Scheme) (b s : Except Err Str) (hu : c.new u = .ok x) (hf : Forms t b (.ok h) s x)
    (hh : hexToTagEncodable h = .ok x) (extra : Str) (he : ∀ c ∈ asciiDigits extra, c ∈ py "0123456789abcdefABCDEF") :
    hexToTagEncodable (h ++ extra) = .ok x := by
  obtain ⟨hs, hb⟩ := hex_read hh
  rw [hex_more hs he]
  by_cases hc : (hexStringBits h).take 8 = py "00111101"
  · rw [lookup_cpi _ hc] at hb
    obtain ⟨x', hx', rfl⟩ := map_ok_iff.1 hb
    have h1 : c = .cpi := ((Cls.new_facts hu).1).symm
    subst h1
    have hn := map_inj (fun _ _ e => Scheme.cpi.inj e) (show (CPI.new u).map _ = _ from hu)
    obtain ⟨cs, f, -, hb', hh', -⟩ := hf
    cases hbb : x'.binary cs f with
    | error e => rw [(C72_cpi_write x' cs f).2 e hbb |>.1] at hh'; cases hh'
    | ok b0 =>
      have hB : Bits b0 := by
        apply Classical.byContradiction
        intro hn
        rw [(((C72_cpi_write x' cs f).1 b0 hbb).2 hn).1] at hh'; cases hh'
      obtain ⟨r, -, er⟩ := CPI.binary_signed hbb
      have hh2 : hexOf (.ok b0) = .ok h := by rw [← hbb]; exact hh'
      obtain ⟨k, ek⟩ := hex_bits hB (by rw [er]; cases cs <;> simp [CPI.Coding.header]) (by rw [er]; cases cs <;> simp [CPI.Coding.header]) hh2 hs
      rw [ek] at hc hx' ⊢
      cases cs with
      | cpi96 => rw [er] at hc; exact absurd hc (by simp [CPI.Coding.header])
      | cpiVar =>
        rw [List.append_assoc]
        exact cpi_settled (e := List.replicate k '0') hn hbb (by rw [lookup_cpi _ hc, hx']; rfl) _
  · by_cases ha : (hexStringBits h).take 8 = py "00111011"
    · rw [lookup_adi _ ha] at hb
      obtain ⟨x', hx', rfl⟩ := map_ok_iff.1 hb
      have h1 : c = .adi := ((Cls.new_facts hu).1).symm
      subst h1
      have hn := map_inj (fun _ _ e => Scheme.adi.inj e) (show (ADI.new u).map _ = _ from hu)
      obtain ⟨cs, f, -, hb', hh', -⟩ := hf
      cases cs
      cases hbb : x'.binary .adiVar f with
      | error e => rw [(C72_adi_write x' .adiVar f).2 e hbb |>.1] at hh'; cases hh'
      | ok b0 =>
        have hB : Bits b0 := by
          apply Classical.byContradiction
          intro hn
          rw [(((C72_adi_write x' .adiVar f).1 b0 hbb).2 hn).1] at hh'; cases hh'
        obtain ⟨r, -, er⟩ := ADI.binary_signed hbb
        have hh2 : hexOf (.ok b0) = .ok h := by rw [← hbb]; exact hh'
        obtain ⟨k, ek⟩ := hex_bits hB (by rw [er]; simp [ADI.Coding.header]) (by rw [er]; simp [ADI.Coding.header]) hh2 hs
        rw [ek] at ha hx' ⊢
        rw [List.append_assoc]
        exact adi_settled (e := List.replicate k '0') hn hbb (by rw [lookup_adi _ ha, hx']; rfl) _
    · exact C109_fixed _ _ x hc ha hb

/-! Tags of each kind with something behind them. -/
example : ((ADI.new (py "urn:epc:id:adi:W81X9C.3KL984PX1.2WMA52")).bind fun x => (x.hex .adiVar 3).bind fun h =>
    (hexToTagEncodable (h ++ py "00fF1A9")).map fun y => decide (hexToTagEncodable h = .ok y ∧ y = .adi x)) = .ok true := by decide +kernel
example : ((CPI.new (py "urn:epc:id:cpi:0614141.5PQ7%2FZ43.12345")).bind fun x => (x.hex .cpiVar 3).bind fun h =>
    (hexToTagEncodable (h ++ py "FFFF")).map fun y => decide (hexToTagEncodable h = .ok y ∧ y = .cpi x)) = .ok true := by decide +kernel
example : ((SGTIN.new (py "urn:epc:id:sgtin:0614141.812345.6789")).bind fun x => (x.binary .sgtin96 3).bind fun b =>
    (binaryToTagEncodable (b ++ py "01?")).map fun y => decide (binaryToTagEncodable b = .ok y ∧ y = .sgtin x)) = .ok true := by decide +kernel

end Epc

namespace Epc.Src
open Spec

/-- Executing the source: a tag that is written and read back is read back also if more bits, or more hexadecimal digits, follow. -/
theorem C109_source (c : Cls) (u : Str) (o : Val) (h : construct (clOf c) [.str u] = .ok o) (kw : List (Nm × Val)) (hk : kw ∈ options o)
    (t : Str) (ht : invoke o .tag_uri [] kw = .ok (.str t)) :
    (∀ b, invoke o .binary [] kw = .ok (.str b) → function .binary_to_tag_encodable [.str b] [] = .ok o →
      ∀ extra, function .binary_to_tag_encodable [.str (b ++ extra)] [] = .ok o) ∧
    (∀ d, invoke o .hex [] kw = .ok (.str d) → function .hex_to_tag_encodable [.str d] [] = .ok o →
      ∀ extra : Str, (∀ c ∈ extra, c ∈ py "0123456789abcdefABCDEF") → function .hex_to_tag_encodable [.str (d ++ extra)] [] = .ok o) := by
  obtain ⟨x, hx, rfl⟩ := constructed h
  obtain ⟨hF, hall⟩ := forms_agree x
  obtain ⟨rb, rh, rs, e1, e2, e3⟩ := hall kw hk
  have hf := (hF t rb rh rs).2 ⟨kw, hk, ht, e1, e2, e3⟩
  constructor
  · intro b hb hr extra
    rw [e1] at hb
    rw [outcome_str_ok.1 hb] at hf
    rw [C93_binary_to_tag_encodable] at hr ⊢
    rw [C109_binary c u t b x rh rs hx hf (outcome_scheme_ok.1 hr) extra]; rfl
  · intro d hd hr extra hextra
    rw [e2] at hd
    rw [outcome_str_ok.1 hd] at hf
    rw [C93_hex_to_tag_encodable] at hr ⊢
    rw [C109_hex c u t d x rb rs hx hf (outcome_scheme_ok.1 hr) extra ?_]
    · rfl
    · have : ∀ c ∈ py "0123456789abcdefABCDEF", asciiDigit c = c := by decide +kernel
      intro c hc
      obtain ⟨a, ha, rfl⟩ := List.mem_map.1 hc
      rw [this a (hextra a ha)]
      exact hextra a ha

end Epc.Src
