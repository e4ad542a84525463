/-
Coding schemes for which `tag_uri` returns have a well-formed binary.
Generated by tools/gen_avail.py.
-/
import Verif.Lemmas.Binary
import Verif.Lemmas.BinaryMore
import Verif.Lemmas.VarBinary
import Verif.Props.C17

namespace Epc
open Spec Re

theorem SGTIN.serial_of_tagUri {u t : Str} {x : SGTIN} {f : Fin 8} (hu : SGTIN.new u = .ok x) (ht : x.tagUri .sgtin96 f = .ok t) :
    Numeral x.serial ∧ number x.serial < 2 ^ 38 := by
  obtain ⟨b, rfl, _⟩ := SGTIN.tagUri_form hu ht
  refine Classical.byContradiction fun h => ?_
  rw [(C17_sgtin b x f hu).2 h] at ht
  cases ht

theorem SGTIN.avail_sgtin96 {u t : Str} {x : SGTIN} {f : Fin 8} (ha : Ascii u) (hu : SGTIN.new u = .ok x)
    (ht : x.tagUri .sgtin96 f = .ok t) : ∃ rest, rest.length = 85 ∧
      BinOk x (x.binary .sgtin96) SGTIN.fromBinary (Coding.header .sgtin96) (fun f : Fin 8 => bin 3 f) rest :=
  SGTIN.binOk_sgtin96 ha hu (SGTIN.serial_of_tagUri hu ht)

theorem SGLN.serial_of_tagUri {u t : Str} {x : SGLN} {f : Fin 8} (hu : SGLN.new u = .ok x) (ht : x.tagUri .sgln96 f = .ok t) :
    Numeral x.serial ∧ number x.serial < 2 ^ 41 := by
  obtain ⟨b, rfl, _⟩ := SGLN.tagUri_form hu ht
  refine Classical.byContradiction fun h => ?_
  rw [(C17_sgln b x f hu).2 h] at ht
  cases ht

theorem SGLN.avail_sgln96 {u t : Str} {x : SGLN} {f : Fin 8} (ha : Ascii u) (hu : SGLN.new u = .ok x)
    (ht : x.tagUri .sgln96 f = .ok t) : ∃ rest, rest.length = 85 ∧
      BinOk x (x.binary .sgln96) SGLN.fromBinary (Coding.header .sgln96) (fun f : Fin 8 => bin 3 f) rest :=
  SGLN.binOk_sgln96 ha hu (SGLN.serial_of_tagUri hu ht)

theorem GRAI.serial_of_tagUri {u t : Str} {x : GRAI} {f : Fin 8} (hu : GRAI.new u = .ok x) (ht : x.tagUri .grai96 f = .ok t) :
    Numeral x.serial ∧ number x.serial < 2 ^ 38 := by
  obtain ⟨b, rfl, _⟩ := GRAI.tagUri_form hu ht
  refine Classical.byContradiction fun h => ?_
  rw [(C17_grai b x f hu).2 h] at ht
  cases ht

theorem GRAI.avail_grai96 {u t : Str} {x : GRAI} {f : Fin 8} (ha : Ascii u) (hu : GRAI.new u = .ok x)
    (ht : x.tagUri .grai96 f = .ok t) : ∃ rest, rest.length = 85 ∧
      BinOk x (x.binary .grai96) GRAI.fromBinary (Coding.header .grai96) (fun f : Fin 8 => bin 3 f) rest :=
  GRAI.binOk_grai96 ha hu (GRAI.serial_of_tagUri hu ht)

theorem GDTI.serial_of_tagUri {u t : Str} {x : GDTI} {f : Fin 8} (hu : GDTI.new u = .ok x) (ht : x.tagUri .gdti96 f = .ok t) :
    Numeral x.serial ∧ number x.serial < 2 ^ 41 := by
  obtain ⟨b, rfl, _⟩ := GDTI.tagUri_form hu ht
  refine Classical.byContradiction fun h => ?_
  rw [(C17_gdti b x f hu).2 h] at ht
  cases ht

theorem GDTI.avail_gdti96 {u t : Str} {x : GDTI} {f : Fin 8} (ha : Ascii u) (hu : GDTI.new u = .ok x)
    (ht : x.tagUri .gdti96 f = .ok t) : ∃ rest, rest.length = 85 ∧
      BinOk x (x.binary .gdti96) GDTI.fromBinary (Coding.header .gdti96) (fun f : Fin 8 => bin 3 f) rest :=
  GDTI.binOk_gdti96 ha hu (GDTI.serial_of_tagUri hu ht)

theorem ITIP.serial_of_tagUri {u t : Str} {x : ITIP} {f : Fin 8} (hu : ITIP.new u = .ok x) (ht : x.tagUri .itip110 f = .ok t) :
    Numeral x.serial ∧ number x.serial < 2 ^ 38 := by
  obtain ⟨b, rfl, _⟩ := ITIP.tagUri_form hu ht
  refine Classical.byContradiction fun h => ?_
  rw [(C17_itip b x f hu).2 h] at ht
  cases ht

theorem ITIP.avail_itip110 {u t : Str} {x : ITIP} {f : Fin 8} (ha : Ascii u) (hu : ITIP.new u = .ok x)
    (hp : x.piece.length = 2 ∧ number x.piece < 99) (hq : x.total.length = 2 ∧ number x.total < 99)
    (ht : x.tagUri .itip110 f = .ok t) : ∃ rest, rest.length = 99 ∧
      BinOk x (x.binary .itip110) ITIP.fromBinary (Coding.header .itip110) (fun f : Fin 8 => bin 3 f) rest :=
  ITIP.binOk_itip110 ha hu hp hq (ITIP.serial_of_tagUri hu ht)

theorem numeral_canonical {s : Str} (h : Numeral s) : Canonical s := canonical_digits h.1 h.2.1

/-- The object with the URI `GIAI.binary` and `GIAI.tag_uri` actually describe. -/
theorem GIAI.normal {u : Str} {x : GIAI} (hu : GIAI.new u = .ok x) :
    ∃ y, GIAI.new (py "urn:epc:id:giai:" ++ (x.companyPref ++ '.' :: x.assetRef)) = .ok y ∧ (Ascii u → Ascii (py "urn:epc:id:giai:" ++ (x.companyPref ++ '.' :: x.assetRef))) ∧
      y.epcUri = py "urn:epc:id:giai:" ++ (x.companyPref ++ '.' :: x.assetRef) ∧ y.companyPref = x.companyPref ∧ y.assetRef = x.assetRef ∧
      (∀ cs f, y.binary cs f = x.binary cs f) ∧ (∀ cs f, y.tagUri cs f = x.tagUri cs f) := by
  obtain ⟨C, S, ⟨hC, hS⟩, ⟨h1, h2, h3⟩, e, rfl⟩ := GIAI.new_iff.1 hu
  dsimp only
  have hne : (split ':' S).headD [] ≠ [] := by
    intro hn
    rw [hn] at h2
    revert h2; decide
  have hS2 : Lang Rx.gs3a3 ((split ':' S).headD []) := gs3a3_head hS hne
  have hn2 : ':' ∉ (split ':' S).headD [] := by
    obtain ⟨a, l, hl⟩ := List.exists_cons_of_ne_nil (split_ne_nil ':' S)
    rw [hl]; exact mem_split (s := S) (by rw [hl]; simp)
  have hs3 : (split ':' ((split ':' S).headD [])).headD [] = (split ':' S).headD [] := by rw [split_notMem hn2]; rfl
  have hy : GIAI.new (py "urn:epc:id:giai" ++ ':' :: (C ++ '.' :: (split ':' S).headD [])) =
      .ok ⟨py "urn:epc:id:giai" ++ ':' :: (C ++ '.' :: (split ':' S).headD []), C, (split ':' S).headD [], C ++ replaceUriEscapes ((split ':' S).headD [])⟩ := by
    refine GIAI.new_iff.2 ⟨C, _, ⟨hC, hS2⟩, ?_, rfl, ?_⟩
    · rw [hs3]; exact ⟨h1, h2, h3⟩
    · rw [hs3]
  refine ⟨_, hy, fun ha => ?_, rfl, rfl, rfl, fun _ _ => rfl, fun _ _ => rfl⟩
  obtain ⟨aC, aS⟩ := ascii_uri2 (e ▸ ha)
  refine ascii_append.2 ⟨by simp [Ascii], ascii_append.2 ⟨aC, ascii_cons.2 ⟨by decide, gs3a3_ascii hS2⟩⟩⟩

theorem GIAI.normal_of_no_colon {body : Str} {x : GIAI} (hc : ':' ∉ body) (hu : GIAI.new (py "urn:epc:id:giai:" ++ body) = .ok x) :
    x.epcUri = py "urn:epc:id:giai:" ++ (x.companyPref ++ '.' :: x.assetRef) := by
  obtain ⟨C, S, ⟨hC, hS⟩, _, e, rfl⟩ := GIAI.new_iff.1 hu
  have e' := List.append_cancel_left (as := py "urn:epc:id:giai:") e
  have hS : ':' ∉ S := fun h => hc (by rw [e']; simp [h])
  rw [e', split_notMem hS]
  rfl

theorem GIAI.serial_of_tagUri {u t : Str} {x : GIAI} {f : Fin 8} (hu : GIAI.new u = .ok x) (ht : x.tagUri .giai96 f = .ok t) :
    Numeral x.assetRef ∧ number x.assetRef < 2 ^ (82 - prefixBits x.companyPref.length) := by
  refine Classical.byContradiction fun h => ?_
  rw [(C17_giai u x f hu).2 fun h' => h ⟨h'.1, h'.2.2⟩] at ht
  cases ht

/-- Whatever the URI of the GIAI: its binaries decode to the object they describe. -/
theorem GIAI.avail_giai96 {u t : Str} {x : GIAI} {f : Fin 8} (ha : Ascii u) (hu : GIAI.new u = .ok x) (ht : x.tagUri .giai96 f = .ok t) :
    ∃ y, GIAI.new (py "urn:epc:id:giai:" ++ (x.companyPref ++ '.' :: x.assetRef)) = .ok y ∧ ∃ rest, rest.length = 85 ∧
      BinOk y (x.binary .giai96) GIAI.fromBinary (Coding.header .giai96) (fun f : Fin 8 => bin 3 f) rest := by
  obtain ⟨y, hy, ay, ey, ec, er, eb, et⟩ := GIAI.normal hu
  obtain ⟨rest, hl, hb⟩ := GIAI.binOk_giai96 (ay ha) hy (by rw [ey, ec, er]) (by rw [ec, er]; exact GIAI.serial_of_tagUri hu ht)
  rw [show y.binary .giai96 = x.binary .giai96 from funext fun f => eb _ f] at hb
  exact ⟨y, hy, rest, hl, hb⟩

theorem GIAI.avail_giai202 {u : Str} {x : GIAI} (ha : Ascii u) (hu : GIAI.new u = .ok x) (hs : Canonical x.assetRef) :
    ∃ y, GIAI.new (py "urn:epc:id:giai:" ++ (x.companyPref ++ '.' :: x.assetRef)) = .ok y ∧ ∃ rest, rest.length = 191 ∧
      BinOk y (x.binary .giai202) GIAI.fromBinary (Coding.header .giai202) (fun f : Fin 8 => bin 3 f) rest := by
  obtain ⟨y, hy, ay, ey, ec, er, eb, et⟩ := GIAI.normal hu
  obtain ⟨rest, hl, hb⟩ := GIAI.binOk_giai202 (ay ha) hy (by rw [ey, ec, er]) (by rw [er]; exact hs)
  rw [show y.binary .giai202 = x.binary .giai202 from funext fun f => eb _ f] at hb
  exact ⟨y, hy, rest, hl, hb⟩

theorem GIAI.tagUri_decodes {u t : Str} {x : GIAI} {cs : GIAI.Coding} {f : Fin 8} (hu : GIAI.new u = .ok x) (ht : x.tagUri cs f = .ok t) :
    GIAI.fromTagUri t = GIAI.new (py "urn:epc:id:giai:" ++ (x.companyPref ++ '.' :: x.assetRef)) := by
  obtain ⟨y, hy, ay, ey, ec, er, eb, et⟩ := GIAI.normal hu
  obtain ⟨C, S, hC, hS, _, e1, e2, rfl⟩ := GIAI.tagUri_form hu ht
  rw [e1, e2] at hy ⊢
  rw [hy]
  exact GIAI.fromTagUri_of_new (num_natStr _) hy

theorem CPI.serial_of_tagUri {u t : Str} {x : CPI} {f : Fin 8} (ha : Ascii u) (hu : CPI.new u = .ok x) (ht : x.tagUri .cpi96 f = .ok t) :
    number x.serial < 2 ^ 31 ∧ Numeral x.cpRef ∧ x.companyPref.length + x.cpRef.length ≤ 15 := by
  obtain ⟨b, rfl, _⟩ := CPI.tagUri_form hu ht
  have h : unumber x.serial < 2 ^ 31 ∧ Numeral x.cpRef ∧ x.companyPref.length + x.cpRef.length ≤ 15 := by
    refine Classical.byContradiction fun h => ?_
    rw [(C17_cpi b x f hu).2 h] at ht
    cases ht
  have hn : unumber x.serial = number x.serial := by
    obtain ⟨C, D, S, ⟨hC, hD, hS⟩, _, e, rfl⟩ := CPI.new_iff.1 hu
    obtain ⟨aC, aD, aS⟩ := ascii_uri3 (e ▸ ha)
    exact unumber_of_digits (digits_of_dec_ascii hS.dec aS)
  rwa [hn] at h

theorem CPI.avail_cpi96 {u t : Str} {x : CPI} {f : Fin 8} (ha : Ascii u) (hu : CPI.new u = .ok x) (ht : x.tagUri .cpi96 f = .ok t) :
    ∃ rest, rest.length = 85 ∧ BinOk x (x.binary .cpi96) CPI.fromBinary (Coding.header .cpi96) (fun f : Fin 8 => bin 3 f) rest :=
  CPI.binOk_cpi96 ha hu (CPI.serial_of_tagUri ha hu ht)

theorem Fixed.encode {A : Str} (hA : Digits A) (hne : A ≠ []) :
    encodeFixedWidthInteger A 7 = if number A < 99 then .ok (bin 7 (number A)) else .error .convert := by
  have hd : fixedDigits 7 = 2 := by decide
  unfold encodeFixedWidthInteger
  rw [pyInt_Digits hA hne, ok_bind, hd, strToBinary_decimal (isDecimal_of_Digits hA) hne, decVal_Digits hA]
  by_cases h : number A < 99
  · rw [if_pos h, if_neg (by omega)]
  · rw [if_neg h, if_pos (by omega)]

theorem ITIP.binary_small {u b : Str} {x : ITIP} {cs : ITIP.Coding} {f : Fin 8} (ha : Ascii u) (hu : ITIP.new u = .ok x)
    (hb : x.binary cs f = .ok b) : number x.piece < 99 ∧ number x.total < 99 := by
  obtain ⟨C, D, A, B, S, ⟨hC, hD, hA, hB, hS⟩, hlen, e, rfl⟩ := ITIP.new_iff.1 hu
  obtain ⟨aC, aD, aA, aB, aS⟩ := ascii_uri5 (e ▸ ha)
  unfold ITIP.binary at hb
  dsimp only at hb
  rw [Fixed.encode (digits_of_dec_ascii hA.2 aA) hA.1, Fixed.encode (digits_of_dec_ascii hB.2 aB) hB.1] at hb
  rw [filter_ok, ok_bind] at hb
  obtain ⟨g, _, hb⟩ := bind_ok_iff.1 hb
  obtain ⟨p, hp, hb⟩ := bind_ok_iff.1 hb
  obtain ⟨q, hq, hb⟩ := bind_ok_iff.1 hb
  constructor
  · refine Classical.byContradiction fun h => ?_
    rw [if_neg h] at hp; cases hp
  · refine Classical.byContradiction fun h => ?_
    rw [if_neg h] at hq; cases hq

end Epc
