/-
C63: decimal digits of other scripts mean what the ASCII digits mean.

The constructors accept decimal digits of every script in the numeric components (C14).  `asciiDigits` (Spec/Script.lean) writes every decimal
digit of a text as the ASCII digit of the same value.  For every accepted URI `u` with object `x`: `asciiDigits u` is made of ASCII characters and
accepted, its attributes are those of `x` rewritten in the same way, so are GS1 key, element string and tag URI, and the binary encoding is
the same.  So C56 and C57, which are stated for URIs of ASCII characters, determine the encodings of all accepted URIs.
Generated by tools/gen_c63.py.
-/
import Verif.Lemmas.Script
import Verif.Props.C12

set_option linter.unusedSimpArgs false

namespace Epc
open Spec Re

private theorem asc2 {q a b : Str} (hq : Ascii q) (ha : Ascii a) (hb : Ascii b) : Ascii (q ++ ':' :: (a ++ '.' :: b)) :=
  ascii_append.2 ⟨hq, ascii_cons.2 ⟨by decide, ascii_append.2 ⟨ha, ascii_cons.2 ⟨by decide, hb⟩⟩⟩⟩

private theorem asc3 {q a b c : Str} (hq : Ascii q) (ha : Ascii a) (hb : Ascii b) (hc : Ascii c) :
    Ascii (q ++ ':' :: (a ++ '.' :: (b ++ '.' :: c))) :=
  asc2 hq ha (ascii_append.2 ⟨hb, ascii_cons.2 ⟨by decide, hc⟩⟩)

private theorem asc5 {q a b c d e : Str} (hq : Ascii q) (ha : Ascii a) (hb : Ascii b) (hc : Ascii c) (hd : Ascii d) (he : Ascii e) :
    Ascii (q ++ ':' :: (a ++ '.' :: (b ++ '.' :: (c ++ '.' :: (d ++ '.' :: e))))) :=
  asc3 hq ha hb (ascii_append.2 ⟨hc, ascii_cons.2 ⟨by decide, ascii_append.2 ⟨hd, ascii_cons.2 ⟨by decide, he⟩⟩⟩⟩)

private theorem map_ok' {α β : Type} {f : α → β} {a : α} : (Except.ok a : Except Err α).map f = .ok (f a) := rfl

private theorem map_bind_ite {b : Except Err Bool} {s t : Str} (h : asciiDigits s = t) :
    (b >>= fun bad => if bad = true then Except.error Err.convert else pure t) =
      (b >>= fun bad => if bad = true then Except.error Err.convert else pure s).map asciiDigits := by
  subst h
  cases b with
  | error e => rfl
  | ok v => cases v <;> rfl

/-- SGTIN. -/
theorem C63_sgtin (u : Str) (x : SGTIN) (hu : SGTIN.new u = .ok x) :
    ∃ y, Ascii (asciiDigits u) ∧
      SGTIN.new (asciiDigits u) = .ok y ∧
      y = ⟨asciiDigits x.epcUri, asciiDigits x.companyPref, asciiDigits x.itemRef, asciiDigits x.serial, asciiDigits x.gtin14⟩ ∧
      y.gs1Key = x.gs1Key.map asciiDigits ∧
      y.gs1ElementString = x.gs1ElementString.map asciiDigits ∧
      ∀ (c : SGTIN.Coding) (f : Fin 8), y.tagUri c f = (x.tagUri c f).map asciiDigits ∧ y.binary c f = x.binary c f := by
  obtain ⟨C, D, S, ⟨⟨hC0, hC⟩, ⟨hD0, hD⟩, hS⟩, hc, rfl, rfl⟩ := SGTIN.new_iff.1 hu
  have aS : asciiDigits S = S := asciiDigits_ascii (gs3a3_ascii hS)
  have rS : asciiDigits (replaceUriEscapes S) = replaceUriEscapes S := asciiDigits_unescaped hS
  have eu : asciiDigits (py "urn:epc:id:sgtin" ++ ':' :: (C ++ '.' :: (D ++ '.' :: S))) = py "urn:epc:id:sgtin" ++ ':' :: (asciiDigits C ++ '.' :: (asciiDigits D ++ '.' :: S)) := by
    simp only [asciiDigits_append, asciiDigits_cons, asciiDigit_dot, asciiDigit_colon, aS, rS]
    rfl
  have hasc : Ascii (py "urn:epc:id:sgtin" ++ ':' :: (asciiDigits C ++ '.' :: (asciiDigits D ++ '.' :: S))) :=
    asc3 (by decide) (ascii_of_dec hC) (ascii_of_dec hD) (gs3a3_ascii hS)
  rw [eu]
  refine ⟨_, hasc, SGTIN.new_iff.2 ⟨asciiDigits C, asciiDigits D, S, ⟨⟨asciiDigits_ne_nil hC0, dec_asciiDigits hC⟩, ⟨asciiDigits_ne_nil hD0, dec_asciiDigits hD⟩, hS⟩, by simpa only [length_asciiDigits, decVal_asciiDigits] using hc, rfl, rfl⟩, ?_, ?_, ?_, ?_⟩
  · dsimp only
    simp only [← padLeft_asciiDigits, ← keyBody_asciiDigits, asciiDigits_append, asciiDigits_cons, asciiDigit_dot, asciiDigit_colon, uCheck_keyBody_ad, uCheck_append_ad, asciiDigits_natStr, aS, rS]
  · show Except.ok (List.take 14 _) = Except.ok (asciiDigits (List.take 14 _))
    dsimp only
    rw [asciiDigits_take]
    simp only [← padLeft_asciiDigits, ← keyBody_asciiDigits, asciiDigits_append, asciiDigits_cons, asciiDigit_dot, asciiDigit_colon, uCheck_keyBody_ad, asciiDigits_natStr]
  · unfold SGTIN.gs1ElementString
    dsimp only
    rw [map_ok']
    simp only [← padLeft_asciiDigits, ← keyBody_asciiDigits, asciiDigits_append, asciiDigits_cons, asciiDigit_dot, asciiDigit_colon, uCheck_keyBody_ad, uCheck_append_ad, asciiDigits_natStr, aS, rS]
    rfl
  · intro c f
    have ap : asciiDigits tagUriPrefix = tagUriPrefix := by decide
    have ac : asciiDigits c.value = c.value := by cases c <;> decide
    constructor
    · unfold SGTIN.tagUri
      cases c
      all_goals
        dsimp only
        refine map_bind_ite ?_
        simp only [asciiDigits_append, asciiDigits_cons, asciiDigit_dot, asciiDigit_colon, ap, ac, asciiDigits_filterStr, aS, rS]
    · unfold SGTIN.binary
      dsimp only
      simp only [encodePartitionTable_asciiDigits]

/-- SSCC. -/
theorem C63_sscc (u : Str) (x : SSCC) (hu : SSCC.new u = .ok x) :
    ∃ y, Ascii (asciiDigits u) ∧
      SSCC.new (asciiDigits u) = .ok y ∧
      y = ⟨asciiDigits x.epcUri, asciiDigits x.companyPref, asciiDigits x.serial, asciiDigits x.sscc⟩ ∧
      y.gs1Key = asciiDigits x.gs1Key ∧
      y.gs1ElementString = x.gs1ElementString.map asciiDigits ∧
      ∀ (c : SSCC.Coding) (f : Fin 8), y.tagUri c f = (x.tagUri c f).map asciiDigits ∧ y.binary c f = x.binary c f := by
  obtain ⟨C, D, ⟨⟨hC0, hC⟩, ⟨hD0, hD⟩⟩, hc, rfl, rfl⟩ := SSCC.new_iff.1 hu
  have eu : asciiDigits (py "urn:epc:id:sscc" ++ ':' :: (C ++ '.' :: D)) = py "urn:epc:id:sscc" ++ ':' :: (asciiDigits C ++ '.' :: asciiDigits D) := by
    simp only [asciiDigits_append, asciiDigits_cons, asciiDigit_dot, asciiDigit_colon]
    rfl
  have hasc : Ascii (py "urn:epc:id:sscc" ++ ':' :: (asciiDigits C ++ '.' :: asciiDigits D)) :=
    asc2 (by decide) (ascii_of_dec hC) (ascii_of_dec hD)
  rw [eu]
  refine ⟨_, hasc, SSCC.new_iff.2 ⟨asciiDigits C, asciiDigits D, ⟨⟨asciiDigits_ne_nil hC0, dec_asciiDigits hC⟩, ⟨asciiDigits_ne_nil hD0, dec_asciiDigits hD⟩⟩, by simpa only [length_asciiDigits, decVal_asciiDigits] using hc, rfl, rfl⟩, ?_, ?_, ?_, ?_⟩
  · dsimp only
    simp only [← padLeft_asciiDigits, ← keyBody_asciiDigits, asciiDigits_append, asciiDigits_cons, asciiDigit_dot, asciiDigit_colon, uCheck_keyBody_ad, uCheck_append_ad, asciiDigits_natStr]
  · unfold SSCC.gs1Key
    dsimp only
    simp only [← keyBody_asciiDigits, asciiDigits_append, asciiDigits_cons, asciiDigit_dot, asciiDigit_colon, uCheck_keyBody_ad, uCheck_append_ad, asciiDigits_natStr]
  · unfold SSCC.gs1ElementString
    dsimp only
    rw [map_ok']
    simp only [← padLeft_asciiDigits, ← keyBody_asciiDigits, asciiDigits_append, asciiDigits_cons, asciiDigit_dot, asciiDigit_colon, uCheck_keyBody_ad, uCheck_append_ad, asciiDigits_natStr]
    rfl
  · intro c f
    have ap : asciiDigits tagUriPrefix = tagUriPrefix := by decide
    have ac : asciiDigits c.value = c.value := by cases c <;> decide
    constructor
    · unfold SSCC.tagUri
      dsimp only
      rw [map_ok']
      simp only [asciiDigits_append, asciiDigits_cons, asciiDigit_dot, asciiDigit_colon, ap, ac, asciiDigits_filterStr]
    · unfold SSCC.binary
      dsimp only
      simp only [encodePartitionTable_asciiDigits]

/-- SGLN. -/
theorem C63_sgln (u : Str) (x : SGLN) (hu : SGLN.new u = .ok x) :
    ∃ y, Ascii (asciiDigits u) ∧
      SGLN.new (asciiDigits u) = .ok y ∧
      y = ⟨asciiDigits x.epcUri, asciiDigits x.companyPref, asciiDigits x.locationRef, asciiDigits x.serial, asciiDigits x.gln⟩ ∧
      y.gs1Key = asciiDigits x.gs1Key ∧
      y.gs1ElementString = x.gs1ElementString.map asciiDigits ∧
      ∀ (c : SGLN.Coding) (f : Fin 8), y.tagUri c f = (x.tagUri c f).map asciiDigits ∧ y.binary c f = x.binary c f := by
  obtain ⟨C, D, S, ⟨⟨hC0, hC⟩, hD, hS⟩, hc, rfl, rfl⟩ := SGLN.new_iff.1 hu
  have aS : asciiDigits S = S := asciiDigits_ascii (gs3a3_ascii hS)
  have rS : asciiDigits (replaceUriEscapes S) = replaceUriEscapes S := asciiDigits_unescaped hS
  have eu : asciiDigits (py "urn:epc:id:sgln" ++ ':' :: (C ++ '.' :: (D ++ '.' :: S))) = py "urn:epc:id:sgln" ++ ':' :: (asciiDigits C ++ '.' :: (asciiDigits D ++ '.' :: S)) := by
    simp only [asciiDigits_append, asciiDigits_cons, asciiDigit_dot, asciiDigit_colon, aS, rS]
    rfl
  have hasc : Ascii (py "urn:epc:id:sgln" ++ ':' :: (asciiDigits C ++ '.' :: (asciiDigits D ++ '.' :: S))) :=
    asc3 (by decide) (ascii_of_dec hC) (ascii_of_dec hD) (gs3a3_ascii hS)
  rw [eu]
  refine ⟨_, hasc, SGLN.new_iff.2 ⟨asciiDigits C, asciiDigits D, S, ⟨⟨asciiDigits_ne_nil hC0, dec_asciiDigits hC⟩, dec_asciiDigits hD, hS⟩, by simpa only [length_asciiDigits, decVal_asciiDigits] using hc, rfl, rfl⟩, ?_, ?_, ?_, ?_⟩
  · dsimp only
    simp only [← padLeft_asciiDigits, ← keyBody_asciiDigits, asciiDigits_append, asciiDigits_cons, asciiDigit_dot, asciiDigit_colon, uCheck_keyBody_ad, uCheck_append_ad, asciiDigits_natStr, aS, rS]
  · unfold SGLN.gs1Key
    dsimp only
    simp only [← keyBody_asciiDigits, asciiDigits_append, asciiDigits_cons, asciiDigit_dot, asciiDigit_colon, uCheck_keyBody_ad, uCheck_append_ad, asciiDigits_natStr, aS, rS]
  · unfold SGLN.gs1ElementString
    dsimp only
    rw [map_ok']
    simp only [← padLeft_asciiDigits, ← keyBody_asciiDigits, asciiDigits_append, asciiDigits_cons, asciiDigit_dot, asciiDigit_colon, uCheck_keyBody_ad, uCheck_append_ad, asciiDigits_natStr, aS, rS]
    rfl
  · intro c f
    have ap : asciiDigits tagUriPrefix = tagUriPrefix := by decide
    have ac : asciiDigits c.value = c.value := by cases c <;> decide
    constructor
    · unfold SGLN.tagUri
      cases c
      all_goals
        dsimp only
        refine map_bind_ite ?_
        simp only [asciiDigits_append, asciiDigits_cons, asciiDigit_dot, asciiDigit_colon, ap, ac, asciiDigits_filterStr, aS, rS]
    · unfold SGLN.binary
      dsimp only
      simp only [encodePartitionTable_asciiDigits]

/-- GRAI. -/
theorem C63_grai (u : Str) (x : GRAI) (hu : GRAI.new u = .ok x) :
    ∃ y, Ascii (asciiDigits u) ∧
      GRAI.new (asciiDigits u) = .ok y ∧
      y = ⟨asciiDigits x.epcUri, asciiDigits x.companyPref, asciiDigits x.assetType, asciiDigits x.serial, asciiDigits x.grai⟩ ∧
      y.gs1Key = asciiDigits x.gs1Key ∧
      y.gs1ElementString = x.gs1ElementString.map asciiDigits ∧
      ∀ (c : GRAI.Coding) (f : Fin 8), y.tagUri c f = (x.tagUri c f).map asciiDigits ∧ y.binary c f = x.binary c f := by
  obtain ⟨C, D, S, ⟨⟨hC0, hC⟩, hD, hS⟩, hc, rfl, rfl⟩ := GRAI.new_iff.1 hu
  have aS : asciiDigits S = S := asciiDigits_ascii (gs3a3_ascii hS)
  have rS : asciiDigits (replaceUriEscapes S) = replaceUriEscapes S := asciiDigits_unescaped hS
  have eu : asciiDigits (py "urn:epc:id:grai" ++ ':' :: (C ++ '.' :: (D ++ '.' :: S))) = py "urn:epc:id:grai" ++ ':' :: (asciiDigits C ++ '.' :: (asciiDigits D ++ '.' :: S)) := by
    simp only [asciiDigits_append, asciiDigits_cons, asciiDigit_dot, asciiDigit_colon, aS, rS]
    rfl
  have hasc : Ascii (py "urn:epc:id:grai" ++ ':' :: (asciiDigits C ++ '.' :: (asciiDigits D ++ '.' :: S))) :=
    asc3 (by decide) (ascii_of_dec hC) (ascii_of_dec hD) (gs3a3_ascii hS)
  rw [eu]
  refine ⟨_, hasc, GRAI.new_iff.2 ⟨asciiDigits C, asciiDigits D, S, ⟨⟨asciiDigits_ne_nil hC0, dec_asciiDigits hC⟩, dec_asciiDigits hD, hS⟩, by simpa only [length_asciiDigits, decVal_asciiDigits] using hc, rfl, rfl⟩, ?_, ?_, ?_, ?_⟩
  · dsimp only
    simp only [← padLeft_asciiDigits, ← keyBody_asciiDigits, asciiDigits_append, asciiDigits_cons, asciiDigit_dot, asciiDigit_colon, uCheck_keyBody_ad, uCheck_append_ad, asciiDigits_natStr, aS, rS]
  · unfold GRAI.gs1Key
    dsimp only
    simp only [← keyBody_asciiDigits, asciiDigits_append, asciiDigits_cons, asciiDigit_dot, asciiDigit_colon, uCheck_keyBody_ad, uCheck_append_ad, asciiDigits_natStr, aS, rS]
  · unfold GRAI.gs1ElementString
    dsimp only
    rw [map_ok']
    simp only [← padLeft_asciiDigits, ← keyBody_asciiDigits, asciiDigits_append, asciiDigits_cons, asciiDigit_dot, asciiDigit_colon, uCheck_keyBody_ad, uCheck_append_ad, asciiDigits_natStr, aS, rS]
    rfl
  · intro c f
    have ap : asciiDigits tagUriPrefix = tagUriPrefix := by decide
    have ac : asciiDigits c.value = c.value := by cases c <;> decide
    constructor
    · unfold GRAI.tagUri
      cases c
      all_goals
        dsimp only
        refine map_bind_ite ?_
        simp only [asciiDigits_append, asciiDigits_cons, asciiDigit_dot, asciiDigit_colon, ap, ac, asciiDigits_filterStr, aS, rS]
    · unfold GRAI.binary
      dsimp only
      simp only [encodePartitionTable_asciiDigits]

/-- GDTI. -/
theorem C63_gdti (u : Str) (x : GDTI) (hu : GDTI.new u = .ok x) :
    ∃ y, Ascii (asciiDigits u) ∧
      GDTI.new (asciiDigits u) = .ok y ∧
      y = ⟨asciiDigits x.epcUri, asciiDigits x.companyPref, asciiDigits x.docType, asciiDigits x.serial, asciiDigits x.gdti⟩ ∧
      y.gs1Key = asciiDigits x.gs1Key ∧
      y.gs1ElementString = x.gs1ElementString.map asciiDigits ∧
      ∀ (c : GDTI.Coding) (f : Fin 8), y.tagUri c f = (x.tagUri c f).map asciiDigits ∧ y.binary c f = x.binary c f := by
  obtain ⟨C, D, S, ⟨⟨hC0, hC⟩, hD, hS⟩, hc, rfl, rfl⟩ := GDTI.new_iff.1 hu
  have aS : asciiDigits S = S := asciiDigits_ascii (gs3a3_ascii hS)
  have rS : asciiDigits (replaceUriEscapes S) = replaceUriEscapes S := asciiDigits_unescaped hS
  have eu : asciiDigits (py "urn:epc:id:gdti" ++ ':' :: (C ++ '.' :: (D ++ '.' :: S))) = py "urn:epc:id:gdti" ++ ':' :: (asciiDigits C ++ '.' :: (asciiDigits D ++ '.' :: S)) := by
    simp only [asciiDigits_append, asciiDigits_cons, asciiDigit_dot, asciiDigit_colon, aS, rS]
    rfl
  have hasc : Ascii (py "urn:epc:id:gdti" ++ ':' :: (asciiDigits C ++ '.' :: (asciiDigits D ++ '.' :: S))) :=
    asc3 (by decide) (ascii_of_dec hC) (ascii_of_dec hD) (gs3a3_ascii hS)
  rw [eu]
  refine ⟨_, hasc, GDTI.new_iff.2 ⟨asciiDigits C, asciiDigits D, S, ⟨⟨asciiDigits_ne_nil hC0, dec_asciiDigits hC⟩, dec_asciiDigits hD, hS⟩, by simpa only [length_asciiDigits, decVal_asciiDigits] using hc, rfl, rfl⟩, ?_, ?_, ?_, ?_⟩
  · dsimp only
    simp only [← padLeft_asciiDigits, ← keyBody_asciiDigits, asciiDigits_append, asciiDigits_cons, asciiDigit_dot, asciiDigit_colon, uCheck_keyBody_ad, uCheck_append_ad, asciiDigits_natStr, aS, rS]
  · unfold GDTI.gs1Key
    dsimp only
    simp only [← keyBody_asciiDigits, asciiDigits_append, asciiDigits_cons, asciiDigit_dot, asciiDigit_colon, uCheck_keyBody_ad, uCheck_append_ad, asciiDigits_natStr, aS, rS]
  · unfold GDTI.gs1ElementString
    dsimp only
    rw [map_ok']
    simp only [← padLeft_asciiDigits, ← keyBody_asciiDigits, asciiDigits_append, asciiDigits_cons, asciiDigit_dot, asciiDigit_colon, uCheck_keyBody_ad, uCheck_append_ad, asciiDigits_natStr, aS, rS]
    rfl
  · intro c f
    have ap : asciiDigits tagUriPrefix = tagUriPrefix := by decide
    have ac : asciiDigits c.value = c.value := by cases c <;> decide
    constructor
    · unfold GDTI.tagUri
      cases c
      all_goals
        dsimp only
        refine map_bind_ite ?_
        simp only [asciiDigits_append, asciiDigits_cons, asciiDigit_dot, asciiDigit_colon, ap, ac, asciiDigits_filterStr, aS, rS]
    · unfold GDTI.binary
      dsimp only
      simp only [encodePartitionTable_asciiDigits]

/-- GIAI. -/
theorem C63_giai (u : Str) (x : GIAI) (hu : GIAI.new u = .ok x) :
    ∃ y, Ascii (asciiDigits u) ∧
      GIAI.new (asciiDigits u) = .ok y ∧
      y = ⟨asciiDigits x.epcUri, asciiDigits x.companyPref, asciiDigits x.assetRef, asciiDigits x.giai⟩ ∧
      y.gs1Key = asciiDigits x.gs1Key ∧
      y.gs1ElementString = x.gs1ElementString.map asciiDigits ∧
      ∀ (c : GIAI.Coding) (f : Fin 8), y.tagUri c f = (x.tagUri c f).map asciiDigits ∧ y.binary c f = x.binary c f := by
  obtain ⟨C, D, ⟨⟨hC0, hC⟩, hD⟩, hc, rfl, rfl⟩ := GIAI.new_iff.1 hu
  have aD : asciiDigits D = D := asciiDigits_ascii (gs3a3_ascii hD)
  have hne : (split ':' D).headD [] ≠ [] := by
    intro e0
    have hv := hc.2.1
    rw [e0] at hv
    revert hv
    decide
  have hH := gs3a3_head hD hne
  have aH : asciiDigits ((split ':' D).headD []) = (split ':' D).headD [] := asciiDigits_ascii (gs3a3_ascii hH)
  have rH : asciiDigits (replaceUriEscapes ((split ':' D).headD [])) = replaceUriEscapes ((split ':' D).headD []) := asciiDigits_unescaped hH
  have eu : asciiDigits (py "urn:epc:id:giai" ++ ':' :: (C ++ '.' :: D)) = py "urn:epc:id:giai" ++ ':' :: (asciiDigits C ++ '.' :: D) := by
    simp only [asciiDigits_append, asciiDigits_cons, asciiDigit_dot, asciiDigit_colon, aD, aH, rH]
    rfl
  have hasc : Ascii (py "urn:epc:id:giai" ++ ':' :: (asciiDigits C ++ '.' :: D)) :=
    asc2 (by decide) (ascii_of_dec hC) (gs3a3_ascii hD)
  rw [eu]
  refine ⟨_, hasc, GIAI.new_iff.2 ⟨asciiDigits C, D, ⟨⟨asciiDigits_ne_nil hC0, dec_asciiDigits hC⟩, hD⟩, by simpa only [length_asciiDigits, decVal_asciiDigits] using hc, rfl, rfl⟩, ?_, ?_, ?_, ?_⟩
  · dsimp only
    simp only [← padLeft_asciiDigits, ← keyBody_asciiDigits, asciiDigits_append, asciiDigits_cons, asciiDigit_dot, asciiDigit_colon, uCheck_keyBody_ad, uCheck_append_ad, asciiDigits_natStr, aD, aH, rH]
  · unfold GIAI.gs1Key
    dsimp only
    simp only [← keyBody_asciiDigits, asciiDigits_append, asciiDigits_cons, asciiDigit_dot, asciiDigit_colon, uCheck_keyBody_ad, uCheck_append_ad, asciiDigits_natStr, aD, aH, rH]
  · unfold GIAI.gs1ElementString
    dsimp only
    rw [map_ok']
    simp only [← padLeft_asciiDigits, ← keyBody_asciiDigits, asciiDigits_append, asciiDigits_cons, asciiDigit_dot, asciiDigit_colon, uCheck_keyBody_ad, uCheck_append_ad, asciiDigits_natStr, aD, aH, rH]
    rfl
  · intro c f
    have ap : asciiDigits tagUriPrefix = tagUriPrefix := by decide
    have ac : asciiDigits c.value = c.value := by cases c <;> decide
    constructor
    · unfold GIAI.tagUri
      have hb : ∀ (a b : Str), GIAI.badAssetRef ⟨a, asciiDigits C, (split ':' D).headD [], b⟩ c =
          GIAI.badAssetRef ⟨py "urn:epc:id:giai" ++ ':' :: (C ++ '.' :: D), C, (split ':' D).headD [], C ++ replaceUriEscapes ((split ':' D).headD [])⟩ c := by
        intro a b
        cases c
        all_goals
          unfold GIAI.badAssetRef
          dsimp only
          simp only [length_asciiDigits]
      dsimp only
      rw [hb]
      refine map_bind_ite ?_
      simp only [asciiDigits_append, asciiDigits_cons, asciiDigit_dot, asciiDigit_colon, ap, ac, asciiDigits_filterStr, aD, aH, rH]
    · unfold GIAI.binary
      dsimp only
      simp only [encodePartitionTable_asciiDigits']

/-- GSRN. -/
theorem C63_gsrn (u : Str) (x : GSRN) (hu : GSRN.new u = .ok x) :
    ∃ y, Ascii (asciiDigits u) ∧
      GSRN.new (asciiDigits u) = .ok y ∧
      y = ⟨asciiDigits x.epcUri, asciiDigits x.companyPref, asciiDigits x.serviceRef, asciiDigits x.gsrn⟩ ∧
      y.gs1Key = asciiDigits x.gs1Key ∧
      y.gs1ElementString = x.gs1ElementString.map asciiDigits ∧
      ∀ (c : GSRN.Coding) (f : Fin 8), y.tagUri c f = (x.tagUri c f).map asciiDigits ∧ y.binary c f = x.binary c f := by
  obtain ⟨C, D, ⟨⟨hC0, hC⟩, ⟨hD0, hD⟩⟩, hc, rfl, rfl⟩ := GSRN.new_iff.1 hu
  have eu : asciiDigits (py "urn:epc:id:gsrn" ++ ':' :: (C ++ '.' :: D)) = py "urn:epc:id:gsrn" ++ ':' :: (asciiDigits C ++ '.' :: asciiDigits D) := by
    simp only [asciiDigits_append, asciiDigits_cons, asciiDigit_dot, asciiDigit_colon]
    rfl
  have hasc : Ascii (py "urn:epc:id:gsrn" ++ ':' :: (asciiDigits C ++ '.' :: asciiDigits D)) :=
    asc2 (by decide) (ascii_of_dec hC) (ascii_of_dec hD)
  rw [eu]
  refine ⟨_, hasc, GSRN.new_iff.2 ⟨asciiDigits C, asciiDigits D, ⟨⟨asciiDigits_ne_nil hC0, dec_asciiDigits hC⟩, ⟨asciiDigits_ne_nil hD0, dec_asciiDigits hD⟩⟩, by simpa only [length_asciiDigits, decVal_asciiDigits] using hc, rfl, rfl⟩, ?_, ?_, ?_, ?_⟩
  · dsimp only
    simp only [← padLeft_asciiDigits, ← keyBody_asciiDigits, asciiDigits_append, asciiDigits_cons, asciiDigit_dot, asciiDigit_colon, uCheck_keyBody_ad, uCheck_append_ad, asciiDigits_natStr]
  · unfold GSRN.gs1Key
    dsimp only
    simp only [← keyBody_asciiDigits, asciiDigits_append, asciiDigits_cons, asciiDigit_dot, asciiDigit_colon, uCheck_keyBody_ad, uCheck_append_ad, asciiDigits_natStr]
  · unfold GSRN.gs1ElementString
    dsimp only
    rw [map_ok']
    simp only [← padLeft_asciiDigits, ← keyBody_asciiDigits, asciiDigits_append, asciiDigits_cons, asciiDigit_dot, asciiDigit_colon, uCheck_keyBody_ad, uCheck_append_ad, asciiDigits_natStr]
    rfl
  · intro c f
    have ap : asciiDigits tagUriPrefix = tagUriPrefix := by decide
    have ac : asciiDigits c.value = c.value := by cases c <;> decide
    constructor
    · unfold GSRN.tagUri
      dsimp only
      rw [map_ok']
      simp only [asciiDigits_append, asciiDigits_cons, asciiDigit_dot, asciiDigit_colon, ap, ac, asciiDigits_filterStr]
    · unfold GSRN.binary
      dsimp only
      simp only [encodePartitionTable_asciiDigits]

/-- GSRNP. -/
theorem C63_gsrnp (u : Str) (x : GSRNP) (hu : GSRNP.new u = .ok x) :
    ∃ y, Ascii (asciiDigits u) ∧
      GSRNP.new (asciiDigits u) = .ok y ∧
      y = ⟨asciiDigits x.epcUri, asciiDigits x.companyPref, asciiDigits x.serviceRef, asciiDigits x.gsrnp⟩ ∧
      y.gs1Key = asciiDigits x.gs1Key ∧
      y.gs1ElementString = x.gs1ElementString.map asciiDigits ∧
      ∀ (c : GSRNP.Coding) (f : Fin 8), y.tagUri c f = (x.tagUri c f).map asciiDigits ∧ y.binary c f = x.binary c f := by
  obtain ⟨C, D, ⟨⟨hC0, hC⟩, ⟨hD0, hD⟩⟩, hc, rfl, rfl⟩ := GSRNP.new_iff.1 hu
  have eu : asciiDigits (py "urn:epc:id:gsrnp" ++ ':' :: (C ++ '.' :: D)) = py "urn:epc:id:gsrnp" ++ ':' :: (asciiDigits C ++ '.' :: asciiDigits D) := by
    simp only [asciiDigits_append, asciiDigits_cons, asciiDigit_dot, asciiDigit_colon]
    rfl
  have hasc : Ascii (py "urn:epc:id:gsrnp" ++ ':' :: (asciiDigits C ++ '.' :: asciiDigits D)) :=
    asc2 (by decide) (ascii_of_dec hC) (ascii_of_dec hD)
  rw [eu]
  refine ⟨_, hasc, GSRNP.new_iff.2 ⟨asciiDigits C, asciiDigits D, ⟨⟨asciiDigits_ne_nil hC0, dec_asciiDigits hC⟩, ⟨asciiDigits_ne_nil hD0, dec_asciiDigits hD⟩⟩, by simpa only [length_asciiDigits, decVal_asciiDigits] using hc, rfl, rfl⟩, ?_, ?_, ?_, ?_⟩
  · dsimp only
    simp only [← padLeft_asciiDigits, ← keyBody_asciiDigits, asciiDigits_append, asciiDigits_cons, asciiDigit_dot, asciiDigit_colon, uCheck_keyBody_ad, uCheck_append_ad, asciiDigits_natStr]
  · unfold GSRNP.gs1Key
    dsimp only
    simp only [← keyBody_asciiDigits, asciiDigits_append, asciiDigits_cons, asciiDigit_dot, asciiDigit_colon, uCheck_keyBody_ad, uCheck_append_ad, asciiDigits_natStr]
  · unfold GSRNP.gs1ElementString
    dsimp only
    rw [map_ok']
    simp only [← padLeft_asciiDigits, ← keyBody_asciiDigits, asciiDigits_append, asciiDigits_cons, asciiDigit_dot, asciiDigit_colon, uCheck_keyBody_ad, uCheck_append_ad, asciiDigits_natStr]
    rfl
  · intro c f
    have ap : asciiDigits tagUriPrefix = tagUriPrefix := by decide
    have ac : asciiDigits c.value = c.value := by cases c <;> decide
    constructor
    · unfold GSRNP.tagUri
      dsimp only
      rw [map_ok']
      simp only [asciiDigits_append, asciiDigits_cons, asciiDigit_dot, asciiDigit_colon, ap, ac, asciiDigits_filterStr]
    · unfold GSRNP.binary
      dsimp only
      simp only [encodePartitionTable_asciiDigits]

/-- SGCN. -/
theorem C63_sgcn (u : Str) (x : SGCN) (hu : SGCN.new u = .ok x) :
    ∃ y, Ascii (asciiDigits u) ∧
      SGCN.new (asciiDigits u) = .ok y ∧
      y = ⟨asciiDigits x.epcUri, asciiDigits x.companyPref, asciiDigits x.couponRef, asciiDigits x.serial, asciiDigits x.gcn⟩ ∧
      y.gs1Key = asciiDigits x.gs1Key ∧
      y.gs1ElementString = x.gs1ElementString.map asciiDigits ∧
      ∀ (c : SGCN.Coding) (f : Fin 8), y.tagUri c f = (x.tagUri c f).map asciiDigits ∧ y.binary c f = x.binary c f := by
  obtain ⟨C, D, S, ⟨⟨hC0, hC⟩, hD, ⟨hS0, hS⟩⟩, hc, rfl, rfl⟩ := SGCN.new_iff.1 hu
  have eu : asciiDigits (py "urn:epc:id:sgcn" ++ ':' :: (C ++ '.' :: (D ++ '.' :: S))) = py "urn:epc:id:sgcn" ++ ':' :: (asciiDigits C ++ '.' :: (asciiDigits D ++ '.' :: asciiDigits S)) := by
    simp only [asciiDigits_append, asciiDigits_cons, asciiDigit_dot, asciiDigit_colon]
    rfl
  have hasc : Ascii (py "urn:epc:id:sgcn" ++ ':' :: (asciiDigits C ++ '.' :: (asciiDigits D ++ '.' :: asciiDigits S))) :=
    asc3 (by decide) (ascii_of_dec hC) (ascii_of_dec hD) (ascii_of_dec hS)
  rw [eu]
  refine ⟨_, hasc, SGCN.new_iff.2 ⟨asciiDigits C, asciiDigits D, asciiDigits S, ⟨⟨asciiDigits_ne_nil hC0, dec_asciiDigits hC⟩, dec_asciiDigits hD, ⟨asciiDigits_ne_nil hS0, dec_asciiDigits hS⟩⟩, by simpa only [length_asciiDigits, decVal_asciiDigits] using hc, rfl, rfl⟩, ?_, ?_, ?_, ?_⟩
  · dsimp only
    simp only [← padLeft_asciiDigits, ← keyBody_asciiDigits, asciiDigits_append, asciiDigits_cons, asciiDigit_dot, asciiDigit_colon, uCheck_keyBody_ad, uCheck_append_ad, asciiDigits_natStr]
  · unfold SGCN.gs1Key
    dsimp only
    simp only [← keyBody_asciiDigits, asciiDigits_append, asciiDigits_cons, asciiDigit_dot, asciiDigit_colon, uCheck_keyBody_ad, uCheck_append_ad, asciiDigits_natStr]
  · unfold SGCN.gs1ElementString
    dsimp only
    rw [map_ok']
    simp only [← padLeft_asciiDigits, ← keyBody_asciiDigits, asciiDigits_append, asciiDigits_cons, asciiDigit_dot, asciiDigit_colon, uCheck_keyBody_ad, uCheck_append_ad, asciiDigits_natStr]
    rfl
  · intro c f
    have ap : asciiDigits tagUriPrefix = tagUriPrefix := by decide
    have ac : asciiDigits c.value = c.value := by cases c <;> decide
    constructor
    · unfold SGCN.tagUri
      dsimp only
      rw [map_ok']
      simp only [asciiDigits_append, asciiDigits_cons, asciiDigit_dot, asciiDigit_colon, ap, ac, asciiDigits_filterStr]
    · unfold SGCN.binary
      dsimp only
      simp only [encodePartitionTable_asciiDigits, encodeNumericString_asciiDigits]

/-- ITIP. -/
theorem C63_itip (u : Str) (x : ITIP) (hu : ITIP.new u = .ok x) :
    ∃ y, Ascii (asciiDigits u) ∧
      ITIP.new (asciiDigits u) = .ok y ∧
      y = ⟨asciiDigits x.epcUri, asciiDigits x.companyPref, asciiDigits x.itemRef, asciiDigits x.piece, asciiDigits x.total, asciiDigits x.serial⟩ ∧
      y.gs1ElementString = x.gs1ElementString.map asciiDigits ∧
      ∀ (c : ITIP.Coding) (f : Fin 8), y.tagUri c f = (x.tagUri c f).map asciiDigits ∧ y.binary c f = x.binary c f := by
  obtain ⟨C, D, A, B, S, ⟨⟨hC0, hC⟩, ⟨hD0, hD⟩, ⟨hA0, hA⟩, ⟨hB0, hB⟩, hS⟩, hc, rfl, rfl⟩ := ITIP.new_iff.1 hu
  have aS : asciiDigits S = S := asciiDigits_ascii (gs3a3_ascii hS)
  have rS : asciiDigits (replaceUriEscapes S) = replaceUriEscapes S := asciiDigits_unescaped hS
  have eu : asciiDigits (py "urn:epc:id:itip" ++ ':' :: (C ++ '.' :: (D ++ '.' :: (A ++ '.' :: (B ++ '.' :: S))))) = py "urn:epc:id:itip" ++ ':' :: (asciiDigits C ++ '.' :: (asciiDigits D ++ '.' :: (asciiDigits A ++ '.' :: (asciiDigits B ++ '.' :: S)))) := by
    simp only [asciiDigits_append, asciiDigits_cons, asciiDigit_dot, asciiDigit_colon, aS, rS]
    rfl
  have hasc : Ascii (py "urn:epc:id:itip" ++ ':' :: (asciiDigits C ++ '.' :: (asciiDigits D ++ '.' :: (asciiDigits A ++ '.' :: (asciiDigits B ++ '.' :: S))))) :=
    asc5 (by decide) (ascii_of_dec hC) (ascii_of_dec hD) (ascii_of_dec hA) (ascii_of_dec hB) (gs3a3_ascii hS)
  rw [eu]
  refine ⟨_, hasc, ITIP.new_iff.2 ⟨asciiDigits C, asciiDigits D, asciiDigits A, asciiDigits B, S, ⟨⟨asciiDigits_ne_nil hC0, dec_asciiDigits hC⟩, ⟨asciiDigits_ne_nil hD0, dec_asciiDigits hD⟩, ⟨asciiDigits_ne_nil hA0, dec_asciiDigits hA⟩, ⟨asciiDigits_ne_nil hB0, dec_asciiDigits hB⟩, hS⟩, by simpa only [length_asciiDigits, decVal_asciiDigits] using hc, rfl, rfl⟩, ?_, ?_, ?_⟩
  · dsimp only
    simp only [← padLeft_asciiDigits, ← keyBody_asciiDigits, asciiDigits_append, asciiDigits_cons, asciiDigit_dot, asciiDigit_colon, uCheck_keyBody_ad, uCheck_append_ad, asciiDigits_natStr, aS, rS]
  · unfold ITIP.gs1ElementString
    cases D with
    | nil => exact absurd rfl hD0
    | cons i I =>
      have hI := Dec.cons.1 hD
      have hd : Dec (i :: (C ++ I)) := Dec.cons.2 ⟨hI.1, Dec.append.2 ⟨hC, hI.2⟩⟩
      have hd' : Dec (asciiDigit i :: (asciiDigits C ++ asciiDigits I)) := by
        have := dec_asciiDigits hd
        rwa [asciiDigits_cons, asciiDigits_append] at this
      rw [asciiDigits_cons]
      dsimp only
      rw [show getIdx (i :: I) 0 = .ok i from rfl, show getIdx (asciiDigit i :: asciiDigits I) 0 = .ok (asciiDigit i) from rfl, ok_bind, ok_bind,
        show (i :: I).drop 1 = I from rfl, show (asciiDigit i :: asciiDigits I).drop 1 = asciiDigits I from rfl]
      simp only [List.cons_append]
      rw [checksum_dec hd, checksum_dec hd', ok_bind, ok_bind, uCheck_cons_ad, pure_ok, pure_ok, map_ok']
      simp only [asciiDigits_append, asciiDigits_cons, asciiDigit_dot, asciiDigit_colon, asciiDigits_natStr, aS, rS]
      rfl
  · intro c f
    have ap : asciiDigits tagUriPrefix = tagUriPrefix := by decide
    have ac : asciiDigits c.value = c.value := by cases c <;> decide
    constructor
    · unfold ITIP.tagUri
      cases c
      all_goals
        dsimp only
        refine map_bind_ite ?_
        simp only [asciiDigits_append, asciiDigits_cons, asciiDigit_dot, asciiDigit_colon, ap, ac, asciiDigits_filterStr, aS, rS]
    · unfold ITIP.binary
      dsimp only
      simp only [encodePartitionTable_asciiDigits, encodeFixedWidthInteger_asciiDigits]

/-- CPI. -/
theorem C63_cpi (u : Str) (x : CPI) (hu : CPI.new u = .ok x) :
    ∃ y, Ascii (asciiDigits u) ∧
      CPI.new (asciiDigits u) = .ok y ∧
      y = ⟨asciiDigits x.epcUri, asciiDigits x.companyPref, asciiDigits x.cpRef, asciiDigits x.serial⟩ ∧
      y.gs1ElementString = x.gs1ElementString.map asciiDigits ∧
      ∀ (c : CPI.Coding) (f : Fin 8), y.tagUri c f = (x.tagUri c f).map asciiDigits ∧ y.binary c f = x.binary c f := by
  obtain ⟨C, D, S, ⟨⟨hC0, hC⟩, hD, hS⟩, hc, rfl, rfl⟩ := CPI.new_iff.1 hu
  have tD : Ascii D := by
    obtain ⟨raw, _, h1, rfl⟩ := (lang_cpref D).1 hD
    exact fun c hc => (escape39_mem h1 c hc).1
  have aD : asciiDigits D = D := asciiDigits_ascii tD
  have eu : asciiDigits (py "urn:epc:id:cpi" ++ ':' :: (C ++ '.' :: (D ++ '.' :: S))) = py "urn:epc:id:cpi" ++ ':' :: (asciiDigits C ++ '.' :: (D ++ '.' :: asciiDigits S)) := by
    simp only [asciiDigits_append, asciiDigits_cons, asciiDigit_dot, asciiDigit_colon, aD]
    rfl
  have hasc : Ascii (py "urn:epc:id:cpi" ++ ':' :: (asciiDigits C ++ '.' :: (D ++ '.' :: asciiDigits S))) :=
    asc3 (by decide) (ascii_of_dec hC) (tD) (ascii_of_dec hS.dec)
  rw [eu]
  refine ⟨_, hasc, CPI.new_iff.2 ⟨asciiDigits C, D, asciiDigits S, ⟨⟨asciiDigits_ne_nil hC0, dec_asciiDigits hC⟩, hD, num_asciiDigits hS⟩, by simpa only [length_asciiDigits, decVal_asciiDigits] using hc, rfl, rfl⟩, ?_, ?_, ?_⟩
  · dsimp only
    simp only [← padLeft_asciiDigits, ← keyBody_asciiDigits, asciiDigits_append, asciiDigits_cons, asciiDigit_dot, asciiDigit_colon, uCheck_keyBody_ad, uCheck_append_ad, asciiDigits_natStr, aD]
  · unfold CPI.gs1ElementString
    dsimp only
    rw [map_ok']
    have rD : asciiDigits (CPI.replaceCpiEscapes D) = CPI.replaceCpiEscapes D := by
      obtain ⟨raw, _, h1, rfl⟩ := (lang_cpref D).1 hD
      rw [replaceCpi_escape39 h1]
      have : ∀ c ∈ gs39, c.toNat < 128 := by decide
      exact asciiDigits_ascii fun c hc => this c (h1 c hc)
    simp only [asciiDigits_append, asciiDigits_cons, asciiDigit_dot, asciiDigit_colon, rD]
    rfl
  · intro c f
    have ap : asciiDigits tagUriPrefix = tagUriPrefix := by decide
    have ac : asciiDigits c.value = c.value := by cases c <;> decide
    constructor
    · unfold CPI.tagUri
      have hb : CPI.badSerial ⟨py "urn:epc:id:cpi" ++ ':' :: (asciiDigits C ++ '.' :: (D ++ '.' :: asciiDigits S)), asciiDigits C, D, asciiDigits S⟩ c =
          CPI.badSerial ⟨py "urn:epc:id:cpi" ++ ':' :: (C ++ '.' :: (D ++ '.' :: S)), C, D, S⟩ c := by
        cases c
        all_goals
          unfold CPI.badSerial
          dsimp only
          simp only [pyInt_asciiDigits, length_asciiDigits]
      dsimp only
      rw [hb]
      refine map_bind_ite ?_
      simp only [asciiDigits_append, asciiDigits_cons, asciiDigit_dot, asciiDigit_colon, ap, ac, asciiDigits_filterStr, aD]
    · unfold CPI.binary
      dsimp only
      simp only [encodePartitionTable_asciiDigits', strToBinary_asciiDigits]

/-- GID. -/
theorem C63_gid (u : Str) (x : GID) (hu : GID.new u = .ok x) :
    ∃ y, Ascii (asciiDigits u) ∧
      GID.new (asciiDigits u) = .ok y ∧
      y = ⟨asciiDigits x.epcUri, asciiDigits x.manager, asciiDigits x.object, asciiDigits x.serial⟩ ∧
      ∀ (c : GID.Coding), y.tagUri c = (x.tagUri c).map asciiDigits ∧ y.binary c = x.binary c := by
  obtain ⟨C, D, S, ⟨hC, hD, hS⟩, hc, rfl, rfl⟩ := GID.new_iff.1 hu
  have eu : asciiDigits (py "urn:epc:id:gid" ++ ':' :: (C ++ '.' :: (D ++ '.' :: S))) = py "urn:epc:id:gid" ++ ':' :: (asciiDigits C ++ '.' :: (asciiDigits D ++ '.' :: asciiDigits S)) := by
    simp only [asciiDigits_append, asciiDigits_cons, asciiDigit_dot, asciiDigit_colon]
    rfl
  have hasc : Ascii (py "urn:epc:id:gid" ++ ':' :: (asciiDigits C ++ '.' :: (asciiDigits D ++ '.' :: asciiDigits S))) :=
    asc3 (by decide) (ascii_of_dec hC.dec) (ascii_of_dec hD.dec) (ascii_of_dec hS.dec)
  rw [eu]
  refine ⟨_, hasc, GID.new_iff.2 ⟨asciiDigits C, asciiDigits D, asciiDigits S, ⟨num_asciiDigits hC, num_asciiDigits hD, num_asciiDigits hS⟩, by simpa only [length_asciiDigits, decVal_asciiDigits] using hc, rfl, rfl⟩, ?_, ?_⟩
  · rfl
  · intro c
    have ap : asciiDigits tagUriPrefix = tagUriPrefix := by decide
    have ac : asciiDigits c.value = c.value := by cases c <;> decide
    constructor
    · unfold GID.tagUri
      dsimp only
      rw [map_ok']
      simp only [asciiDigits_append, asciiDigits_cons, asciiDigit_dot, asciiDigit_colon, ap, ac]
    · unfold GID.binary
      dsimp only
      simp only [strToBinary_asciiDigits]

/-- USDOD. -/
theorem C63_usdod (u : Str) (x : USDOD) (hu : USDOD.new u = .ok x) :
    ∃ y, Ascii (asciiDigits u) ∧
      USDOD.new (asciiDigits u) = .ok y ∧
      y = ⟨asciiDigits x.epcUri, asciiDigits x.cage, asciiDigits x.serial⟩ ∧
      ∀ (c : USDOD.Coding) (f : Fin 16), y.tagUri c f = (x.tagUri c f).map asciiDigits ∧ y.binary c f = x.binary c f := by
  obtain ⟨C, D, ⟨hC, hD⟩, hc, rfl, rfl⟩ := USDOD.new_iff.1 hu
  have tC : Ascii C := by
    intro c hc
    exact (isCage_facts (((lang_cage C).1 hC).2 c hc)).2.2.2.2
  have aC : asciiDigits C = C := asciiDigits_ascii tC
  have eu : asciiDigits (py "urn:epc:id:usdod" ++ ':' :: (C ++ '.' :: D)) = py "urn:epc:id:usdod" ++ ':' :: (C ++ '.' :: asciiDigits D) := by
    simp only [asciiDigits_append, asciiDigits_cons, asciiDigit_dot, asciiDigit_colon, aC]
    rfl
  have hasc : Ascii (py "urn:epc:id:usdod" ++ ':' :: (C ++ '.' :: asciiDigits D)) :=
    asc2 (by decide) (tC) (ascii_of_dec hD.dec)
  rw [eu]
  refine ⟨_, hasc, USDOD.new_iff.2 ⟨C, asciiDigits D, ⟨hC, num_asciiDigits hD⟩, by simpa only [length_asciiDigits, decVal_asciiDigits] using hc, rfl, rfl⟩, ?_, ?_⟩
  · dsimp only
    simp only [← padLeft_asciiDigits, ← keyBody_asciiDigits, asciiDigits_append, asciiDigits_cons, asciiDigit_dot, asciiDigit_colon, uCheck_keyBody_ad, uCheck_append_ad, asciiDigits_natStr, aC]
  · intro c f
    have ap : asciiDigits tagUriPrefix = tagUriPrefix := by decide
    have ac : asciiDigits c.value = c.value := by cases c <;> decide
    constructor
    · unfold USDOD.tagUri
      dsimp only
      rw [map_ok']
      simp only [asciiDigits_append, asciiDigits_cons, asciiDigit_dot, asciiDigit_colon, ap, ac, asciiDigits_filterStr, aC]
    · unfold USDOD.binary
      dsimp only
      simp only [strToBinary_asciiDigits]

/-- PGLN. -/
theorem C63_pgln (u : Str) (x : PGLN) (hu : PGLN.new u = .ok x) :
    ∃ y, Ascii (asciiDigits u) ∧
      PGLN.new (asciiDigits u) = .ok y ∧
      y = ⟨asciiDigits x.epcUri, asciiDigits x.companyPref, asciiDigits x.partyRef, asciiDigits x.pgln⟩ ∧
      y.gs1Key = asciiDigits x.gs1Key ∧
      y.gs1ElementString = x.gs1ElementString.map asciiDigits := by
  obtain ⟨C, D, ⟨⟨hC0, hC⟩, hD⟩, hc, rfl, rfl⟩ := PGLN.new_iff.1 hu
  have eu : asciiDigits (py "urn:epc:id:pgln" ++ ':' :: (C ++ '.' :: D)) = py "urn:epc:id:pgln" ++ ':' :: (asciiDigits C ++ '.' :: asciiDigits D) := by
    simp only [asciiDigits_append, asciiDigits_cons, asciiDigit_dot, asciiDigit_colon]
    rfl
  have hasc : Ascii (py "urn:epc:id:pgln" ++ ':' :: (asciiDigits C ++ '.' :: asciiDigits D)) :=
    asc2 (by decide) (ascii_of_dec hC) (ascii_of_dec hD)
  rw [eu]
  refine ⟨_, hasc, PGLN.new_iff.2 ⟨asciiDigits C, asciiDigits D, ⟨⟨asciiDigits_ne_nil hC0, dec_asciiDigits hC⟩, dec_asciiDigits hD⟩, by simpa only [length_asciiDigits, decVal_asciiDigits] using hc, rfl, rfl⟩, ?_, ?_, ?_⟩
  · dsimp only
    simp only [← padLeft_asciiDigits, ← keyBody_asciiDigits, asciiDigits_append, asciiDigits_cons, asciiDigit_dot, asciiDigit_colon, uCheck_keyBody_ad, uCheck_append_ad, asciiDigits_natStr]
  · unfold PGLN.gs1Key
    dsimp only
    simp only [← keyBody_asciiDigits, asciiDigits_append, asciiDigits_cons, asciiDigit_dot, asciiDigit_colon, uCheck_keyBody_ad, uCheck_append_ad, asciiDigits_natStr]
  · unfold PGLN.gs1ElementString
    dsimp only
    rw [map_ok']
    simp only [← padLeft_asciiDigits, ← keyBody_asciiDigits, asciiDigits_append, asciiDigits_cons, asciiDigit_dot, asciiDigit_colon, uCheck_keyBody_ad, uCheck_append_ad, asciiDigits_natStr]
    rfl

/-- GSIN. -/
theorem C63_gsin (u : Str) (x : GSIN) (hu : GSIN.new u = .ok x) :
    ∃ y, Ascii (asciiDigits u) ∧
      GSIN.new (asciiDigits u) = .ok y ∧
      y = ⟨asciiDigits x.epcUri, asciiDigits x.companyPref, asciiDigits x.shipperRef, asciiDigits x.gsin⟩ ∧
      y.gs1Key = asciiDigits x.gs1Key ∧
      y.gs1ElementString = x.gs1ElementString.map asciiDigits := by
  obtain ⟨C, D, ⟨⟨hC0, hC⟩, ⟨hD0, hD⟩⟩, hc, rfl, rfl⟩ := GSIN.new_iff.1 hu
  have eu : asciiDigits (py "urn:epc:id:gsin" ++ ':' :: (C ++ '.' :: D)) = py "urn:epc:id:gsin" ++ ':' :: (asciiDigits C ++ '.' :: asciiDigits D) := by
    simp only [asciiDigits_append, asciiDigits_cons, asciiDigit_dot, asciiDigit_colon]
    rfl
  have hasc : Ascii (py "urn:epc:id:gsin" ++ ':' :: (asciiDigits C ++ '.' :: asciiDigits D)) :=
    asc2 (by decide) (ascii_of_dec hC) (ascii_of_dec hD)
  rw [eu]
  refine ⟨_, hasc, GSIN.new_iff.2 ⟨asciiDigits C, asciiDigits D, ⟨⟨asciiDigits_ne_nil hC0, dec_asciiDigits hC⟩, ⟨asciiDigits_ne_nil hD0, dec_asciiDigits hD⟩⟩, by simpa only [length_asciiDigits, decVal_asciiDigits] using hc, rfl, rfl⟩, ?_, ?_, ?_⟩
  · dsimp only
    simp only [← padLeft_asciiDigits, ← keyBody_asciiDigits, asciiDigits_append, asciiDigits_cons, asciiDigit_dot, asciiDigit_colon, uCheck_keyBody_ad, uCheck_append_ad, asciiDigits_natStr]
  · unfold GSIN.gs1Key
    dsimp only
    simp only [← keyBody_asciiDigits, asciiDigits_append, asciiDigits_cons, asciiDigit_dot, asciiDigit_colon, uCheck_keyBody_ad, uCheck_append_ad, asciiDigits_natStr]
  · unfold GSIN.gs1ElementString
    dsimp only
    rw [map_ok']
    simp only [← padLeft_asciiDigits, ← keyBody_asciiDigits, asciiDigits_append, asciiDigits_cons, asciiDigit_dot, asciiDigit_colon, uCheck_keyBody_ad, uCheck_append_ad, asciiDigits_natStr]
    rfl

/-- GINC. -/
theorem C63_ginc (u : Str) (x : GINC) (hu : GINC.new u = .ok x) :
    ∃ y, Ascii (asciiDigits u) ∧
      GINC.new (asciiDigits u) = .ok y ∧
      y = ⟨asciiDigits x.epcUri, asciiDigits x.ginc⟩ ∧
      y.gs1Key = asciiDigits x.gs1Key ∧
      y.gs1ElementString = x.gs1ElementString.map asciiDigits := by
  obtain ⟨C, D, ⟨⟨hC0, hC⟩, hD⟩, hc, rfl, rfl⟩ := GINC.new_iff.1 hu
  have aD : asciiDigits D = D := asciiDigits_ascii (gs3a3_ascii hD)
  have rD : asciiDigits (replaceUriEscapes D) = replaceUriEscapes D := asciiDigits_unescaped hD
  have eu : asciiDigits (py "urn:epc:id:ginc" ++ ':' :: (C ++ '.' :: D)) = py "urn:epc:id:ginc" ++ ':' :: (asciiDigits C ++ '.' :: D) := by
    simp only [asciiDigits_append, asciiDigits_cons, asciiDigit_dot, asciiDigit_colon, aD, rD]
    rfl
  have hasc : Ascii (py "urn:epc:id:ginc" ++ ':' :: (asciiDigits C ++ '.' :: D)) :=
    asc2 (by decide) (ascii_of_dec hC) (gs3a3_ascii hD)
  rw [eu]
  refine ⟨_, hasc, GINC.new_iff.2 ⟨asciiDigits C, D, ⟨⟨asciiDigits_ne_nil hC0, dec_asciiDigits hC⟩, hD⟩, by simpa only [length_asciiDigits, decVal_asciiDigits] using hc, rfl, rfl⟩, ?_, ?_, ?_⟩
  · dsimp only
    simp only [← padLeft_asciiDigits, ← keyBody_asciiDigits, asciiDigits_append, asciiDigits_cons, asciiDigit_dot, asciiDigit_colon, uCheck_keyBody_ad, uCheck_append_ad, asciiDigits_natStr, aD, rD]
  · unfold GINC.gs1Key
    dsimp only
    simp only [← keyBody_asciiDigits, asciiDigits_append, asciiDigits_cons, asciiDigit_dot, asciiDigit_colon, uCheck_keyBody_ad, uCheck_append_ad, asciiDigits_natStr, aD, rD]
  · unfold GINC.gs1ElementString
    dsimp only
    rw [map_ok']
    simp only [← padLeft_asciiDigits, ← keyBody_asciiDigits, asciiDigits_append, asciiDigits_cons, asciiDigit_dot, asciiDigit_colon, uCheck_keyBody_ad, uCheck_append_ad, asciiDigits_natStr, aD, rD]
    rfl

/-- LGTIN. -/
theorem C63_lgtin (u : Str) (x : LGTIN) (hu : LGTIN.new u = .ok x) :
    ∃ y, Ascii (asciiDigits u) ∧
      LGTIN.new (asciiDigits u) = .ok y ∧
      y = ⟨asciiDigits x.epcUri, asciiDigits x.companyPref, asciiDigits x.itemRef, asciiDigits x.lot, asciiDigits x.gtin14⟩ ∧
      y.gs1Key = x.gs1Key.map asciiDigits ∧
      y.gs1ElementString = x.gs1ElementString.map asciiDigits := by
  obtain ⟨C, D, S, ⟨⟨hC0, hC⟩, ⟨hD0, hD⟩, hS⟩, hc, rfl, rfl⟩ := LGTIN.new_iff.1 hu
  have aS : asciiDigits S = S := asciiDigits_ascii (gs3a3_ascii hS)
  have rS : asciiDigits (replaceUriEscapes S) = replaceUriEscapes S := asciiDigits_unescaped hS
  have eu : asciiDigits (py "urn:epc:class:lgtin" ++ ':' :: (C ++ '.' :: (D ++ '.' :: S))) = py "urn:epc:class:lgtin" ++ ':' :: (asciiDigits C ++ '.' :: (asciiDigits D ++ '.' :: S)) := by
    simp only [asciiDigits_append, asciiDigits_cons, asciiDigit_dot, asciiDigit_colon, aS, rS]
    rfl
  have hasc : Ascii (py "urn:epc:class:lgtin" ++ ':' :: (asciiDigits C ++ '.' :: (asciiDigits D ++ '.' :: S))) :=
    asc3 (by decide) (ascii_of_dec hC) (ascii_of_dec hD) (gs3a3_ascii hS)
  rw [eu]
  refine ⟨_, hasc, LGTIN.new_iff.2 ⟨asciiDigits C, asciiDigits D, S, ⟨⟨asciiDigits_ne_nil hC0, dec_asciiDigits hC⟩, ⟨asciiDigits_ne_nil hD0, dec_asciiDigits hD⟩, hS⟩, by simpa only [length_asciiDigits, decVal_asciiDigits] using hc, rfl, rfl⟩, ?_, ?_, ?_⟩
  · dsimp only
    simp only [← padLeft_asciiDigits, ← keyBody_asciiDigits, asciiDigits_append, asciiDigits_cons, asciiDigit_dot, asciiDigit_colon, uCheck_keyBody_ad, uCheck_append_ad, asciiDigits_natStr, aS, rS]
  · show Except.ok (List.take 14 _) = Except.ok (asciiDigits (List.take 14 _))
    dsimp only
    rw [asciiDigits_take]
    simp only [← padLeft_asciiDigits, ← keyBody_asciiDigits, asciiDigits_append, asciiDigits_cons, asciiDigit_dot, asciiDigit_colon, uCheck_keyBody_ad, asciiDigits_natStr]
  · unfold LGTIN.gs1ElementString
    dsimp only
    rw [map_ok']
    simp only [← padLeft_asciiDigits, ← keyBody_asciiDigits, asciiDigits_append, asciiDigits_cons, asciiDigit_dot, asciiDigit_colon, uCheck_keyBody_ad, uCheck_append_ad, asciiDigits_natStr, aS, rS]
    rfl

/-- UPUI. -/
theorem C63_upui (u : Str) (x : UPUI) (hu : UPUI.new u = .ok x) :
    ∃ y, Ascii (asciiDigits u) ∧
      UPUI.new (asciiDigits u) = .ok y ∧
      y = ⟨asciiDigits x.epcUri, asciiDigits x.companyPref, asciiDigits x.itemRef, asciiDigits x.tpx⟩ ∧
      y.gs1ElementString = x.gs1ElementString.map asciiDigits := by
  obtain ⟨C, D, S, ⟨⟨hC0, hC⟩, hD, hS⟩, hc, rfl, rfl⟩ := UPUI.new_iff.1 hu
  have aS : asciiDigits S = S := asciiDigits_ascii (gs3a3_ascii hS)
  have rS : asciiDigits (replaceUriEscapes S) = replaceUriEscapes S := asciiDigits_unescaped hS
  have eu : asciiDigits (py "urn:epc:id:upui" ++ ':' :: (C ++ '.' :: (D ++ '.' :: S))) = py "urn:epc:id:upui" ++ ':' :: (asciiDigits C ++ '.' :: (asciiDigits D ++ '.' :: S)) := by
    simp only [asciiDigits_append, asciiDigits_cons, asciiDigit_dot, asciiDigit_colon, aS, rS]
    rfl
  have hasc : Ascii (py "urn:epc:id:upui" ++ ':' :: (asciiDigits C ++ '.' :: (asciiDigits D ++ '.' :: S))) :=
    asc3 (by decide) (ascii_of_dec hC) (ascii_of_dec hD) (gs3a3_ascii hS)
  rw [eu]
  refine ⟨_, hasc, UPUI.new_iff.2 ⟨asciiDigits C, asciiDigits D, S, ⟨⟨asciiDigits_ne_nil hC0, dec_asciiDigits hC⟩, dec_asciiDigits hD, hS⟩, by simpa only [length_asciiDigits, decVal_asciiDigits] using hc, rfl, rfl⟩, ?_, ?_⟩
  · dsimp only
    simp only [← padLeft_asciiDigits, ← keyBody_asciiDigits, asciiDigits_append, asciiDigits_cons, asciiDigit_dot, asciiDigit_colon, uCheck_keyBody_ad, uCheck_append_ad, asciiDigits_natStr, aS, rS]
  · unfold UPUI.gs1ElementString
    cases D with
    | nil => rfl
    | cons i I =>
      have hI := Dec.cons.1 hD
      have hd : Dec (i :: (C ++ I)) := Dec.cons.2 ⟨hI.1, Dec.append.2 ⟨hC, hI.2⟩⟩
      have hd' : Dec (asciiDigit i :: (asciiDigits C ++ asciiDigits I)) := by
        have := dec_asciiDigits hd
        rwa [asciiDigits_cons, asciiDigits_append] at this
      rw [asciiDigits_cons]
      dsimp only
      rw [show getIdx (i :: I) 0 = .ok i from rfl, show getIdx (asciiDigit i :: asciiDigits I) 0 = .ok (asciiDigit i) from rfl, ok_bind, ok_bind,
        show (i :: I).drop 1 = I from rfl, show (asciiDigit i :: asciiDigits I).drop 1 = asciiDigits I from rfl]
      simp only [List.cons_append]
      rw [checksum_dec hd, checksum_dec hd', ok_bind, ok_bind, uCheck_cons_ad, pure_ok, pure_ok, map_ok']
      simp only [asciiDigits_append, asciiDigits_cons, asciiDigit_dot, asciiDigit_colon, asciiDigits_natStr, aS, rS]
      rfl

/-- ADI, BIC and IMOVN accept only ASCII characters. -/
theorem C63_ascii_only (u : Str) : ((∃ x, ADI.new u = .ok x) ∨ (∃ x, BIC.new u = .ok x) ∨ (∃ x, IMOVN.new u = .ok x)) → Ascii u := by
  rintro (h | h | h)
  · obtain ⟨G, p, s, hG, _, _, hp, _, _, _, hs, _, _, rfl⟩ := (C12_adi u).1 h
    have e : py "urn:epc:id:adi:" ++ joinWith '.' [G, escape39 p, escape39 s] =
        py "urn:epc:id:adi" ++ ':' :: (G ++ '.' :: (escape39 p ++ '.' :: escape39 s)) := by simp [joinWith]
    rw [e]
    exact asc3 (by decide) (fun c hc => (isCage_facts ((mem_cage c).1 (hG c hc))).2.2.2.2)
      (fun c hc => (escape39_mem (fun c hc => (hp c hc).1) c hc).1) (fun c hc => (escape39_mem hs c hc).1)
  · obtain ⟨o, c, d, _, ho, hc, _, hd, rfl⟩ := (C12_bic u).1 h
    have hb : ∀ c ∈ bicLetters, c.toNat < 128 := by decide
    have hj : ∀ c ∈ py "JUZ", c.toNat < 128 := by decide
    exact ascii_append.2 ⟨ascii_append.2 ⟨ascii_append.2 ⟨by decide, fun c hc => hb c (ho c hc)⟩, ascii_cons.2 ⟨hj c hc, fun _ h => by cases h⟩⟩,
      ascii_of_digits hd⟩
  · obtain ⟨d, _, hd, rfl⟩ := (C12_imovn u).1 h
    exact ascii_append.2 ⟨by decide, ascii_of_digits hd⟩

/-! ### Non-vacuity: accepted URIs with digits of other scripts, and what they are rewritten to -/

example : ((SGTIN.new (py "urn:epc:id:sgtin:٩٥٢١١٤١.०12345.32a%2Fb")).toOption.map (fun x => asciiDigits x.epcUri)) = some (py "urn:epc:id:sgtin:9521141.012345.32a%2Fb") := by decide +kernel
example : ((GID.new (py "urn:epc:id:gid:9٥٢.2.3")).toOption.map (fun x => asciiDigits x.epcUri)) = some (py "urn:epc:id:gid:952.2.3") := by decide +kernel
example : ((SGCN.new (py "urn:epc:id:sgcn:٩٥٢١١٤١.67890.0471१")).toOption.map (fun x => asciiDigits x.epcUri)) = some (py "urn:epc:id:sgcn:9521141.67890.04711") := by decide +kernel

/-- Two objects with different URIs and the same bits. -/
example : ((SGTIN.new (py "urn:epc:id:sgtin:٩521141.012345.1")).toOption.map (fun x => (x.binary .sgtin96 1).toOption)) =
    ((SGTIN.new (py "urn:epc:id:sgtin:9521141.012345.1")).toOption.map (fun x => (x.binary .sgtin96 1).toOption)) := by decide +kernel

end Epc
